import Verif.Units.Model

/-! # The unit table of resqpy (generated from olio/data/properties.json)

One row per entry of `units`: name, number of the base unit in `baseNames`, number of the dimension in `dimNames`, and
the factors A, B, C, D as exact fractions of the decimal numbers in the file.  Entries without factors are base units
and get (0, 1, 1, 0), as at weights_and_measures.py:389-414 `get_conversion_factors`.  The alias and case insensitive
tables are transcribed from weights_and_measures/weights_and_measures.py:25-84. -/

namespace Verif.Units

/-- olio/data/properties.json, units 0 to 119 -/
def rows0 : List Row := [
  ⟨"%", 0, 0, (0, 1), (1, 100), (1, 1), (0, 1)⟩,
  ⟨"ppk", 0, 0, (0, 1), (1, 1000), (1, 1), (0, 1)⟩,
  ⟨"ppm", 0, 0, (0, 1), (1, 1000000), (1, 1), (0, 1)⟩,
  ⟨"Euc", 0, 0, (0, 1), (1, 1), (1, 1), (0, 1)⟩,
  ⟨"byte", 1, 0, (0, 1), (8, 1), (1, 1), (0, 1)⟩,
  ⟨"bit", 1, 0, (0, 1), (1, 1), (1, 1), (0, 1)⟩,
  ⟨"%[mass]", 2, 0, (0, 1), (1, 100), (1, 1), (0, 1)⟩,
  ⟨"ppm[mass]", 2, 0, (0, 1), (1, 1000000), (1, 1), (0, 1)⟩,
  ⟨"%[area]", 3, 0, (0, 1), (1, 100), (1, 1), (0, 1)⟩,
  ⟨"%[vol]", 4, 0, (0, 1), (1, 100), (1, 1), (0, 1)⟩,
  ⟨"ppm[vol]", 4, 0, (0, 1), (1, 1000000), (1, 1), (0, 1)⟩,
  ⟨"%[molar]", 5, 0, (0, 1), (1, 100), (1, 1), (0, 1)⟩,
  ⟨"(bbl/d)/(bbl/d)", 6, 0, (0, 1), (1, 1), (1, 1), (0, 1)⟩,
  ⟨"(m3/d)/(m3/d)", 6, 0, (0, 1), (1, 1), (1, 1), (0, 1)⟩,
  ⟨"1E6 (ft3/d)/(bbl/d)", 6, 0, (0, 1), (442450728, 15625), (9936705933, 62500000000), (0, 1)⟩,
  ⟨"(m3/s)/(m3/s)", 6, 0, (0, 1), (1, 1), (1, 1), (0, 1)⟩,
  ⟨"kg/kg", 2, 0, (0, 1), (1, 1), (1, 1), (0, 1)⟩,
  ⟨"m/m", 7, 0, (0, 1), (1, 1), (1, 1), (0, 1)⟩,
  ⟨"m2/m2", 3, 0, (0, 1), (1, 1), (1, 1), (0, 1)⟩,
  ⟨"m3/m3", 4, 0, (0, 1), (1, 1), (1, 1), (0, 1)⟩,
  ⟨"mol/mol", 5, 0, (0, 1), (1, 1), (1, 1), (0, 1)⟩,
  ⟨"N/N", 8, 0, (0, 1), (1, 1), (1, 1), (0, 1)⟩,
  ⟨"s/s", 9, 0, (0, 1), (1, 1), (1, 1), (0, 1)⟩,
  ⟨"W/W", 10, 0, (0, 1), (1, 1), (1, 1), (0, 1)⟩,
  ⟨"g/kg", 2, 0, (0, 1), (1, 1000), (1, 1), (0, 1)⟩,
  ⟨"g/t", 2, 0, (0, 1), (1, 1000000), (1, 1), (0, 1)⟩,
  ⟨"kg/sack[94lbm]", 2, 0, (0, 1), (1, 1), (2131884139, 50000000), (0, 1)⟩,
  ⟨"kg/t", 2, 0, (0, 1), (1, 1000), (1, 1), (0, 1)⟩,
  ⟨"mg/g", 2, 0, (0, 1), (1, 1000), (1, 1), (0, 1)⟩,
  ⟨"mg/kg", 2, 0, (0, 1), (1, 1000000), (1, 1), (0, 1)⟩,
  ⟨"ng/g", 2, 0, (0, 1), (1, 1000000000), (1, 1), (0, 1)⟩,
  ⟨"ng/mg", 2, 0, (0, 1), (1, 1000000), (1, 1), (0, 1)⟩,
  ⟨"ug/g", 2, 0, (0, 1), (1, 1000000), (1, 1), (0, 1)⟩,
  ⟨"ug/mg", 2, 0, (0, 1), (1, 1000), (1, 1), (0, 1)⟩,
  ⟨"0.01 ft/ft", 7, 0, (0, 1), (1, 100), (1, 1), (0, 1)⟩,
  ⟨"1/30 m/m", 7, 0, (0, 1), (1, 1), (30, 1), (0, 1)⟩,
  ⟨"ft/ft", 7, 0, (0, 1), (1, 1), (1, 1), (0, 1)⟩,
  ⟨"ft/in", 7, 0, (0, 1), (12, 1), (1, 1), (0, 1)⟩,
  ⟨"ft/m", 7, 0, (0, 1), (381, 1250), (1, 1), (0, 1)⟩,
  ⟨"ft/mi", 7, 0, (0, 1), (1, 1), (5280, 1), (0, 1)⟩,
  ⟨"km/cm", 7, 0, (0, 1), (100000, 1), (1, 1), (0, 1)⟩,
  ⟨"m/cm", 7, 0, (0, 1), (100, 1), (1, 1), (0, 1)⟩,
  ⟨"m/km", 7, 0, (0, 1), (1, 1000), (1, 1), (0, 1)⟩,
  ⟨"mi/in", 7, 0, (0, 1), (63360, 1), (1, 1), (0, 1)⟩,
  ⟨"in2/ft2", 3, 0, (0, 1), (1, 1), (144, 1), (0, 1)⟩,
  ⟨"in2/in2", 3, 0, (0, 1), (1, 1), (1, 1), (0, 1)⟩,
  ⟨"mm2/mm2", 3, 0, (0, 1), (1, 1), (1, 1), (0, 1)⟩,
  ⟨"0.001 bbl/ft3", 4, 0, (0, 1), (9936705933, 62500000000000), (55306341, 1953125000), (0, 1)⟩,
  ⟨"0.001 bbl/m3", 4, 0, (0, 1), (9936705933, 62500000000000), (1, 1), (0, 1)⟩,
  ⟨"0.001 gal[UK]/bbl", 4, 0, (0, 1), (454609, 100000000000), (9936705933, 62500000000), (0, 1)⟩,
  ⟨"0.001 gal[UK]/gal[UK]", 4, 0, (0, 1), (1, 1000), (1, 1), (0, 1)⟩,
  ⟨"0.001 gal[US]/bbl", 4, 0, (0, 1), (473176473, 125000000000000), (9936705933, 62500000000), (0, 1)⟩,
  ⟨"0.001 gal[US]/ft3", 4, 0, (0, 1), (473176473, 125000000000000), (55306341, 1953125000), (0, 1)⟩,
  ⟨"0.001 gal[US]/gal[US]", 4, 0, (0, 1), (1, 1000), (1, 1), (0, 1)⟩,
  ⟨"0.001 pt[UK]/bbl", 4, 0, (0, 1), (454609, 800000000), (9936705933, 62500000), (0, 1)⟩,
  ⟨"0.01 bbl/bbl", 4, 0, (0, 1), (1, 100), (1, 1), (0, 1)⟩,
  ⟨"0.1 gal[US]/bbl", 4, 0, (0, 1), (473176473, 1250000000000), (9936705933, 62500000000), (0, 1)⟩,
  ⟨"0.1 L/bbl", 4, 0, (0, 1), (1, 1000), (9936705933, 6250000000), (0, 1)⟩,
  ⟨"0.1 pt[US]/bbl", 4, 0, (0, 1), (473176473, 1000000000000), (9936705933, 6250000000), (0, 1)⟩,
  ⟨"1000 ft3/bbl", 4, 0, (0, 1), (55306341, 1953125), (9936705933, 62500000000), (0, 1)⟩,
  ⟨"1000 m3/m3", 4, 0, (0, 1), (1000, 1), (1, 1), (0, 1)⟩,
  ⟨"1E-6 acre.ft/bbl", 4, 0, (0, 1), (59746896, 3125), (12321490713889287, 5000000000), (0, 1)⟩,
  ⟨"1E6 bbl/(acre.ft)", 4, 0, (0, 1), (12321490713889287, 5000), (19119006720, 1), (0, 1)⟩,
  ⟨"1E-6 bbl/ft3", 4, 0, (0, 1), (9936705933, 62500000000), (442450728, 15625), (0, 1)⟩,
  ⟨"1E-6 bbl/m3", 4, 0, (0, 1), (9936705933, 62500000000000000), (1, 1), (0, 1)⟩,
  ⟨"1E6 ft3/(acre.ft)", 4, 0, (0, 1), (35999856000144, 25), (62726400000, 1), (0, 1)⟩,
  ⟨"1E6 ft3/bbl", 4, 0, (0, 1), (442450728, 15625), (9936705933, 62500000000), (0, 1)⟩,
  ⟨"bbl/(acre.ft)", 4, 0, (0, 1), (12321490713889287, 5000000000), (19119006720, 1), (0, 1)⟩,
  ⟨"bbl/bbl", 4, 0, (0, 1), (1, 1), (1, 1), (0, 1)⟩,
  ⟨"bbl/ft3", 4, 0, (0, 1), (9936705933, 62500000000), (55306341, 1953125000), (0, 1)⟩,
  ⟨"bbl/m3", 4, 0, (0, 1), (9936705933, 62500000000), (1, 1), (0, 1)⟩,
  ⟨"cm3/cm3", 4, 0, (0, 1), (1, 1), (1, 1), (0, 1)⟩,
  ⟨"cm3/L", 4, 0, (0, 1), (1, 1000), (1, 1), (0, 1)⟩,
  ⟨"cm3/m3", 4, 0, (0, 1), (1, 1000000), (1, 1), (0, 1)⟩,
  ⟨"dm3/m3", 4, 0, (0, 1), (1, 1000), (1, 1), (0, 1)⟩,
  ⟨"ft3/bbl", 4, 0, (0, 1), (55306341, 1953125000), (9936705933, 62500000000), (0, 1)⟩,
  ⟨"ft3/ft3", 4, 0, (0, 1), (1, 1), (1, 1), (0, 1)⟩,
  ⟨"gal[UK]/ft3", 4, 0, (0, 1), (454609, 100000000), (55306341, 1953125000), (0, 1)⟩,
  ⟨"gal[US]/bbl", 4, 0, (0, 1), (473176473, 125000000000), (9936705933, 62500000000), (0, 1)⟩,
  ⟨"gal[US]/ft3", 4, 0, (0, 1), (473176473, 125000000000), (55306341, 1953125000), (0, 1)⟩,
  ⟨"L/m3", 4, 0, (0, 1), (1, 1000), (1, 1), (0, 1)⟩,
  ⟨"m3/(ha.m)", 4, 0, (0, 1), (1, 10000), (1, 1), (0, 1)⟩,
  ⟨"m3/bbl", 4, 0, (0, 1), (1, 1), (9936705933, 62500000000), (0, 1)⟩,
  ⟨"mL/gal[UK]", 4, 0, (0, 1), (1, 1000000), (454609, 100000000), (0, 1)⟩,
  ⟨"mL/gal[US]", 4, 0, (0, 1), (1, 1000000), (473176473, 125000000000), (0, 1)⟩,
  ⟨"mL/mL", 4, 0, (0, 1), (1, 1), (1, 1), (0, 1)⟩,
  ⟨"kgf/kgf", 8, 0, (0, 1), (1, 1), (1, 1), (0, 1)⟩,
  ⟨"lbf/lbf", 8, 0, (0, 1), (1, 1), (1, 1), (0, 1)⟩,
  ⟨"ms/s", 9, 0, (0, 1), (1, 1000), (1, 1), (0, 1)⟩,
  ⟨"Btu[IT]/(hp.h)", 10, 0, (0, 1), (52752792631, 50000000), (2684519537696173, 1000000000), (0, 1)⟩,
  ⟨"W/kW", 10, 0, (0, 1), (1, 1000), (1, 1), (0, 1)⟩,
  ⟨"cEuc", 0, 0, (0, 1), (1, 100), (1, 1), (0, 1)⟩,
  ⟨"dEuc", 0, 0, (0, 1), (1, 10), (1, 1), (0, 1)⟩,
  ⟨"EEuc", 0, 0, (0, 1), (1000000000000000000, 1), (1, 1), (0, 1)⟩,
  ⟨"fEuc", 0, 0, (0, 1), (1, 1000000000000000), (1, 1), (0, 1)⟩,
  ⟨"GEuc", 0, 0, (0, 1), (1000000000, 1), (1, 1), (0, 1)⟩,
  ⟨"kEuc", 0, 0, (0, 1), (1000, 1), (1, 1), (0, 1)⟩,
  ⟨"mEuc", 0, 0, (0, 1), (1, 1000), (1, 1), (0, 1)⟩,
  ⟨"MEuc", 0, 0, (0, 1), (1000000, 1), (1, 1), (0, 1)⟩,
  ⟨"nEuc", 0, 0, (0, 1), (1, 1000000000), (1, 1), (0, 1)⟩,
  ⟨"pEuc", 0, 0, (0, 1), (1, 1000000000000), (1, 1), (0, 1)⟩,
  ⟨"TEuc", 0, 0, (0, 1), (1000000000000, 1), (1, 1), (0, 1)⟩,
  ⟨"uEuc", 0, 0, (0, 1), (1, 1000000), (1, 1), (0, 1)⟩,
  ⟨"Kibyte", 1, 0, (0, 1), (8192, 1), (1, 1), (0, 1)⟩,
  ⟨"Mibyte", 1, 0, (0, 1), (8388608, 1), (1, 1), (0, 1)⟩,
  ⟨"1/deltaC", 11, 1, (0, 1), (1, 1), (1, 1), (0, 1)⟩,
  ⟨"1/deltaF", 11, 1, (0, 1), (9, 1), (5, 1), (0, 1)⟩,
  ⟨"1/deltaR", 11, 1, (0, 1), (9, 1), (5, 1), (0, 1)⟩,
  ⟨"1/deltaK", 11, 1, (0, 1), (1, 1), (1, 1), (0, 1)⟩,
  ⟨"m/(m.deltaK)", 12, 1, (0, 1), (1, 1), (1, 1), (0, 1)⟩,
  ⟨"m3/(m3.deltaK)", 13, 1, (0, 1), (1, 1), (1, 1), (0, 1)⟩,
  ⟨"in/(in.deltaF)", 12, 1, (0, 1), (9, 1), (5, 1), (0, 1)⟩,
  ⟨"mm/(mm.deltaK)", 12, 1, (0, 1), (1, 1), (1, 1), (0, 1)⟩,
  ⟨"1E-6 m3/(m3.deltaC)", 13, 1, (0, 1), (1, 1000000), (1, 1), (0, 1)⟩,
  ⟨"1E-6 m3/(m3.deltaF)", 13, 1, (0, 1), (9, 1000000), (5, 1), (0, 1)⟩,
  ⟨"ppm[vol]/deltaC", 13, 1, (0, 1), (1, 1000000), (1, 1), (0, 1)⟩,
  ⟨"ppm[vol]/deltaF", 13, 1, (0, 1), (9, 1000000), (5, 1), (0, 1)⟩,
  ⟨"cu", 14, 2, (0, 1), (1, 10), (1, 1), (0, 1)⟩,
  ⟨"1/angstrom", 15, 2, (0, 1), (10000000000, 1), (1, 1), (0, 1)⟩,
  ⟨"1/cm", 15, 2, (0, 1), (100, 1), (1, 1), (0, 1)⟩]

/-- olio/data/properties.json, units 120 to 239 -/
def rows1 : List Row := [
  ⟨"1/ft", 15, 2, (0, 1), (1, 1), (381, 1250), (0, 1)⟩,
  ⟨"1/in", 15, 2, (0, 1), (1, 1), (127, 5000), (0, 1)⟩,
  ⟨"1/mi", 15, 2, (0, 1), (1, 1), (201168, 125), (0, 1)⟩,
  ⟨"1/mm", 15, 2, (0, 1), (1000, 1), (1, 1), (0, 1)⟩,
  ⟨"1/nm", 15, 2, (0, 1), (1000000000, 1), (1, 1), (0, 1)⟩,
  ⟨"1/yd", 15, 2, (0, 1), (1, 1), (1143, 1250), (0, 1)⟩,
  ⟨"1E-9 1/ft", 15, 2, (0, 1), (1, 1000000000), (381, 1250), (0, 1)⟩,
  ⟨"b/cm3", 15, 2, (0, 1), (1, 10000000000000000000000), (1, 1), (0, 1)⟩,
  ⟨"ft2/in3", 15, 2, (0, 1), (145161, 1562500), (2048383, 125000000000), (0, 1)⟩,
  ⟨"m2/cm3", 15, 2, (0, 1), (1000000, 1), (1, 1), (0, 1)⟩,
  ⟨"1/m", 15, 2, (0, 1), (1, 1), (1, 1), (0, 1)⟩,
  ⟨"m2/m3", 14, 2, (0, 1), (1, 1), (1, 1), (0, 1)⟩,
  ⟨"1/ft2", 16, 3, (0, 1), (1, 1), (145161, 1562500), (0, 1)⟩,
  ⟨"1/km2", 16, 3, (0, 1), (1, 1000000), (1, 1), (0, 1)⟩,
  ⟨"1/mi2", 16, 3, (0, 1), (1, 1), (40468564224, 15625), (0, 1)⟩,
  ⟨"1/m2", 16, 3, (0, 1), (1, 1), (1, 1), (0, 1)⟩,
  ⟨"m/m3", 17, 3, (0, 1), (1, 1), (1, 1), (0, 1)⟩,
  ⟨"ft/bbl", 17, 3, (0, 1), (381, 1250), (9936705933, 62500000000), (0, 1)⟩,
  ⟨"ft/ft3", 17, 3, (0, 1), (1, 1), (145161, 1562500), (0, 1)⟩,
  ⟨"ft/gal[US]", 17, 3, (0, 1), (381, 1250), (473176473, 125000000000), (0, 1)⟩,
  ⟨"km/dm3", 17, 3, (0, 1), (1000000, 1), (1, 1), (0, 1)⟩,
  ⟨"km/L", 17, 3, (0, 1), (1000000, 1), (1, 1), (0, 1)⟩,
  ⟨"mi/gal[UK]", 17, 3, (0, 1), (201168, 125), (454609, 100000000), (0, 1)⟩,
  ⟨"mi/gal[US]", 17, 3, (0, 1), (201168, 125), (473176473, 125000000000), (0, 1)⟩,
  ⟨"1/bbl", 18, 4, (0, 1), (1, 1), (9936705933, 62500000000), (0, 1)⟩,
  ⟨"1/ft3", 18, 4, (0, 1), (1, 1), (55306341, 1953125000), (0, 1)⟩,
  ⟨"1/gal[UK]", 18, 4, (0, 1), (1, 1), (454609, 100000000), (0, 1)⟩,
  ⟨"1/gal[US]", 18, 4, (0, 1), (1, 1), (473176473, 125000000000), (0, 1)⟩,
  ⟨"1/L", 18, 4, (0, 1), (1000, 1), (1, 1), (0, 1)⟩,
  ⟨"1/m3", 18, 4, (0, 1), (1, 1), (1, 1), (0, 1)⟩,
  ⟨"1/g", 19, 5, (0, 1), (1000, 1), (1, 1), (0, 1)⟩,
  ⟨"1/lbm", 19, 5, (0, 1), (1, 1), (45359237, 100000000), (0, 1)⟩,
  ⟨"1/kg", 19, 5, (0, 1), (1, 1), (1, 1), (0, 1)⟩,
  ⟨"1/(kg.s)", 20, 6, (0, 1), (1, 1), (1, 1), (0, 1)⟩,
  ⟨"pCi/g", 20, 6, (0, 1), (37, 1), (1, 1), (0, 1)⟩,
  ⟨"Bq/kg", 20, 6, (0, 1), (1, 1), (1, 1), (0, 1)⟩,
  ⟨"Ci", 21, 7, (0, 1), (37000000000, 1), (1, 1), (0, 1)⟩,
  ⟨"Bd", 22, 7, (0, 1), (1, 1), (1, 1), (0, 1)⟩,
  ⟨"Bq", 21, 7, (0, 1), (1, 1), (1, 1), (0, 1)⟩,
  ⟨"Hz", 23, 7, (0, 1), (1, 1), (1, 1), (0, 1)⟩,
  ⟨"1/a", 24, 7, (0, 1), (1, 1), (31557600, 1), (0, 1)⟩,
  ⟨"1/d", 24, 7, (0, 1), (1, 1), (86400, 1), (0, 1)⟩,
  ⟨"1/h", 24, 7, (0, 1), (1, 1), (3600, 1), (0, 1)⟩,
  ⟨"1/min", 24, 7, (0, 1), (1, 1), (60, 1), (0, 1)⟩,
  ⟨"1/ms", 24, 7, (0, 1), (1000, 1), (1, 1), (0, 1)⟩,
  ⟨"1/us", 24, 7, (0, 1), (1000000, 1), (1, 1), (0, 1)⟩,
  ⟨"1/wk", 24, 7, (0, 1), (1, 1), (604800, 1), (0, 1)⟩,
  ⟨"byte/s", 25, 7, (0, 1), (8, 1), (1, 1), (0, 1)⟩,
  ⟨"1/s", 24, 7, (0, 1), (1, 1), (1, 1), (0, 1)⟩,
  ⟨"bit/s", 25, 7, (0, 1), (1, 1), (1, 1), (0, 1)⟩,
  ⟨"m3/(s.m3)", 26, 7, (0, 1), (1, 1), (1, 1), (0, 1)⟩,
  ⟨"bbl/(d.acre.ft)", 26, 7, (0, 1), (12321490713889287, 5000000000), (1651882180608000, 1), (0, 1)⟩,
  ⟨"GBq", 21, 7, (0, 1), (1000000000, 1), (1, 1), (0, 1)⟩,
  ⟨"MBq", 21, 7, (0, 1), (1000000, 1), (1, 1), (0, 1)⟩,
  ⟨"mCi", 21, 7, (0, 1), (37000000, 1), (1, 1), (0, 1)⟩,
  ⟨"nCi", 21, 7, (0, 1), (37, 1), (1, 1), (0, 1)⟩,
  ⟨"pCi", 21, 7, (0, 1), (37, 1000), (1, 1), (0, 1)⟩,
  ⟨"TBq", 21, 7, (0, 1), (1000000000000, 1), (1, 1), (0, 1)⟩,
  ⟨"uCi", 21, 7, (0, 1), (37000, 1), (1, 1), (0, 1)⟩,
  ⟨"cHz", 23, 7, (0, 1), (1, 100), (1, 1), (0, 1)⟩,
  ⟨"dHz", 23, 7, (0, 1), (1, 10), (1, 1), (0, 1)⟩,
  ⟨"EHz", 23, 7, (0, 1), (1000000000000000000, 1), (1, 1), (0, 1)⟩,
  ⟨"fHz", 23, 7, (0, 1), (1, 1000000000000000), (1, 1), (0, 1)⟩,
  ⟨"GHz", 23, 7, (0, 1), (1000000000, 1), (1, 1), (0, 1)⟩,
  ⟨"kHz", 23, 7, (0, 1), (1000, 1), (1, 1), (0, 1)⟩,
  ⟨"mHz", 23, 7, (0, 1), (1, 1000), (1, 1), (0, 1)⟩,
  ⟨"MHz", 23, 7, (0, 1), (1000000, 1), (1, 1), (0, 1)⟩,
  ⟨"nHz", 23, 7, (0, 1), (1, 1000000000), (1, 1), (0, 1)⟩,
  ⟨"pHz", 23, 7, (0, 1), (1, 1000000000000), (1, 1), (0, 1)⟩,
  ⟨"THz", 23, 7, (0, 1), (1000000000000, 1), (1, 1), (0, 1)⟩,
  ⟨"uHz", 23, 7, (0, 1), (1, 1000000), (1, 1), (0, 1)⟩,
  ⟨"rad", 27, 8, (0, 1), (1, 1), (1, 1), (0, 1)⟩,
  ⟨"ccgr", 27, 8, (0, 1), (3141592653589793, 1000000000000000), (2000000, 1), (0, 1)⟩,
  ⟨"cgr", 27, 8, (0, 1), (3141592653589793, 1000000000000000), (20000, 1), (0, 1)⟩,
  ⟨"dega", 27, 8, (0, 1), (3141592653589793, 1000000000000000), (180, 1), (0, 1)⟩,
  ⟨"gon", 27, 8, (0, 1), (3141592653589793, 1000000000000000), (200, 1), (0, 1)⟩,
  ⟨"mila", 27, 8, (0, 1), (3141592653589793, 1000000000000000), (3200, 1), (0, 1)⟩,
  ⟨"mina", 27, 8, (0, 1), (3141592653589793, 1000000000000000), (10800, 1), (0, 1)⟩,
  ⟨"rev", 27, 8, (0, 1), (3141592653589793, 500000000000000), (1, 1), (0, 1)⟩,
  ⟨"seca", 27, 8, (0, 1), (3141592653589793, 1000000000000000), (648000, 1), (0, 1)⟩,
  ⟨"0.001 seca", 27, 8, (0, 1), (3141592653589793, 1000000000000000), (648000000, 1), (0, 1)⟩,
  ⟨"krad", 27, 8, (0, 1), (1000, 1), (1, 1), (0, 1)⟩,
  ⟨"mrad", 27, 8, (0, 1), (1, 1000), (1, 1), (0, 1)⟩,
  ⟨"Mrad", 27, 8, (0, 1), (1000000, 1), (1, 1), (0, 1)⟩,
  ⟨"urad", 27, 8, (0, 1), (1, 1000000), (1, 1), (0, 1)⟩,
  ⟨"rad/m", 28, 9, (0, 1), (1, 1), (1, 1), (0, 1)⟩,
  ⟨"0.01 dega/ft", 28, 9, (0, 1), (3141592653589793, 1000000000000000), (27432, 5), (0, 1)⟩,
  ⟨"1/30 dega/ft", 28, 9, (0, 1), (3141592653589793, 1000000000000000), (41148, 25), (0, 1)⟩,
  ⟨"1/30 dega/m", 28, 9, (0, 1), (3141592653589793, 1000000000000000), (5400, 1), (0, 1)⟩,
  ⟨"dega/ft", 28, 9, (0, 1), (3141592653589793, 1000000000000000), (6858, 125), (0, 1)⟩,
  ⟨"dega/m", 28, 9, (0, 1), (3141592653589793, 1000000000000000), (180, 1), (0, 1)⟩,
  ⟨"rad/ft", 28, 9, (0, 1), (1, 1), (381, 1250), (0, 1)⟩,
  ⟨"rev/ft", 28, 9, (0, 1), (3141592653589793, 500000000000000), (381, 1250), (0, 1)⟩,
  ⟨"rev/m", 28, 9, (0, 1), (3141592653589793, 500000000000000), (1, 1), (0, 1)⟩,
  ⟨"rad/m3", 29, 10, (0, 1), (1, 1), (1, 1), (0, 1)⟩,
  ⟨"rad/ft3", 29, 10, (0, 1), (1, 1), (55306341, 1953125000), (0, 1)⟩,
  ⟨"rpm", 30, 11, (0, 1), (3141592653589793, 500000000000000), (60, 1), (0, 1)⟩,
  ⟨"rad/s", 30, 11, (0, 1), (1, 1), (1, 1), (0, 1)⟩,
  ⟨"dega/h", 30, 11, (0, 1), (3141592653589793, 1000000000000000), (648000, 1), (0, 1)⟩,
  ⟨"dega/min", 30, 11, (0, 1), (3141592653589793, 1000000000000000), (10800, 1), (0, 1)⟩,
  ⟨"dega/s", 30, 11, (0, 1), (3141592653589793, 1000000000000000), (180, 1), (0, 1)⟩,
  ⟨"rev/s", 30, 11, (0, 1), (3141592653589793, 500000000000000), (1, 1), (0, 1)⟩,
  ⟨"rad/s2", 31, 12, (0, 1), (1, 1), (1, 1), (0, 1)⟩,
  ⟨"rpm/s", 31, 12, (0, 1), (3141592653589793, 500000000000000), (60, 1), (0, 1)⟩,
  ⟨"deltaC", 32, 13, (0, 1), (1, 1), (1, 1), (0, 1)⟩,
  ⟨"deltaF", 32, 13, (0, 1), (5, 1), (9, 1), (0, 1)⟩,
  ⟨"deltaR", 32, 13, (0, 1), (5, 1), (9, 1), (0, 1)⟩,
  ⟨"deltaK", 32, 13, (0, 1), (1, 1), (1, 1), (0, 1)⟩,
  ⟨"0.01 deltaF/ft", 33, 14, (0, 1), (5, 1), (6858, 25), (0, 1)⟩,
  ⟨"deltaC/ft", 33, 14, (0, 1), (1, 1), (381, 1250), (0, 1)⟩,
  ⟨"deltaC/hm", 33, 14, (0, 1), (1, 100), (1, 1), (0, 1)⟩,
  ⟨"deltaC/km", 33, 14, (0, 1), (1, 1000), (1, 1), (0, 1)⟩,
  ⟨"deltaC/m", 33, 14, (0, 1), (1, 1), (1, 1), (0, 1)⟩,
  ⟨"deltaF/ft", 33, 14, (0, 1), (5, 1), (3429, 1250), (0, 1)⟩,
  ⟨"deltaF/m", 33, 14, (0, 1), (5, 1), (9, 1), (0, 1)⟩,
  ⟨"deltaK/km", 33, 14, (0, 1), (1, 1000), (1, 1), (0, 1)⟩,
  ⟨"deltaK/m", 33, 14, (0, 1), (1, 1), (1, 1), (0, 1)⟩,
  ⟨"deltaC/h", 34, 15, (0, 1), (1, 1), (3600, 1), (0, 1)⟩,
  ⟨"deltaC/min", 34, 15, (0, 1), (1, 1), (60, 1), (0, 1)⟩,
  ⟨"deltaC/s", 34, 15, (0, 1), (1, 1), (1, 1), (0, 1)⟩]

/-- olio/data/properties.json, units 240 to 359 -/
def rows2 : List Row := [
  ⟨"deltaF/h", 34, 15, (0, 1), (5, 1), (32400, 1), (0, 1)⟩,
  ⟨"deltaF/min", 34, 15, (0, 1), (5, 1), (540, 1), (0, 1)⟩,
  ⟨"deltaF/s", 34, 15, (0, 1), (5, 1), (9, 1), (0, 1)⟩,
  ⟨"deltaK/s", 34, 15, (0, 1), (1, 1), (1, 1), (0, 1)⟩,
  ⟨"deltaC/kPa", 35, 16, (0, 1), (1, 1000), (1, 1), (0, 1)⟩,
  ⟨"deltaF/psi", 35, 16, (0, 1), (16129, 5000000), (80067989074689, 2000000000000), (0, 1)⟩,
  ⟨"deltaK/Pa", 35, 16, (0, 1), (1, 1), (1, 1), (0, 1)⟩,
  ⟨"deltaK/W", 36, 17, (0, 1), (1, 1), (1, 1), (0, 1)⟩,
  ⟨"deltaC.m2.h/kcal[th]", 37, 18, (0, 1), (3600, 1), (4184, 1), (0, 1)⟩,
  ⟨"deltaF.ft2.h/Btu[IT]", 37, 18, (0, 1), (5225796, 3125), (474775133679, 50000000), (0, 1)⟩,
  ⟨"deltaK.m2/kW", 37, 18, (0, 1), (1, 1000), (1, 1), (0, 1)⟩,
  ⟨"deltaK.m2/W", 37, 18, (0, 1), (1, 1), (1, 1), (0, 1)⟩,
  ⟨"A", 38, 19, (0, 1), (1, 1), (1, 1), (0, 1)⟩,
  ⟨"cA", 38, 19, (0, 1), (1, 100), (1, 1), (0, 1)⟩,
  ⟨"dA", 38, 19, (0, 1), (1, 10), (1, 1), (0, 1)⟩,
  ⟨"EA", 38, 19, (0, 1), (1000000000000000000, 1), (1, 1), (0, 1)⟩,
  ⟨"fA", 38, 19, (0, 1), (1, 1000000000000000), (1, 1), (0, 1)⟩,
  ⟨"GA", 38, 19, (0, 1), (1000000000, 1), (1, 1), (0, 1)⟩,
  ⟨"kA", 38, 19, (0, 1), (1000, 1), (1, 1), (0, 1)⟩,
  ⟨"mA", 38, 19, (0, 1), (1, 1000), (1, 1), (0, 1)⟩,
  ⟨"MA", 38, 19, (0, 1), (1000000, 1), (1, 1), (0, 1)⟩,
  ⟨"nA", 38, 19, (0, 1), (1, 1000000000), (1, 1), (0, 1)⟩,
  ⟨"pA", 38, 19, (0, 1), (1, 1000000000000), (1, 1), (0, 1)⟩,
  ⟨"TA", 38, 19, (0, 1), (1000000000000, 1), (1, 1), (0, 1)⟩,
  ⟨"uA", 38, 19, (0, 1), (1, 1000000), (1, 1), (0, 1)⟩,
  ⟨"Oe", 39, 20, (0, 1), (1000, 1), (3141592653589793, 250000000000000), (0, 1)⟩,
  ⟨"A/mm", 39, 20, (0, 1), (1000, 1), (1, 1), (0, 1)⟩,
  ⟨"A/m", 39, 20, (0, 1), (1, 1), (1, 1), (0, 1)⟩,
  ⟨"A/cm2", 40, 21, (0, 1), (10000, 1), (1, 1), (0, 1)⟩,
  ⟨"A/ft2", 40, 21, (0, 1), (1, 1), (145161, 1562500), (0, 1)⟩,
  ⟨"A/mm2", 40, 21, (0, 1), (1000000, 1), (1, 1), (0, 1)⟩,
  ⟨"mA/cm2", 40, 21, (0, 1), (10, 1), (1, 1), (0, 1)⟩,
  ⟨"mA/ft2", 40, 21, (0, 1), (1, 1000), (145161, 1562500), (0, 1)⟩,
  ⟨"uA/cm2", 40, 21, (0, 1), (1, 100), (1, 1), (0, 1)⟩,
  ⟨"uA/in2", 40, 21, (0, 1), (1, 1000000), (16129, 25000000), (0, 1)⟩,
  ⟨"A/m2", 40, 21, (0, 1), (1, 1), (1, 1), (0, 1)⟩,
  ⟨"1/H", 41, 22, (0, 1), (1, 1), (1, 1), (0, 1)⟩,
  ⟨"S", 42, 23, (0, 1), (1, 1), (1, 1), (0, 1)⟩,
  ⟨"cS", 42, 23, (0, 1), (1, 100), (1, 1), (0, 1)⟩,
  ⟨"dS", 42, 23, (0, 1), (1, 10), (1, 1), (0, 1)⟩,
  ⟨"ES", 42, 23, (0, 1), (1000000000000000000, 1), (1, 1), (0, 1)⟩,
  ⟨"fS", 42, 23, (0, 1), (1, 1000000000000000), (1, 1), (0, 1)⟩,
  ⟨"GS", 42, 23, (0, 1), (1000000000, 1), (1, 1), (0, 1)⟩,
  ⟨"kS", 42, 23, (0, 1), (1000, 1), (1, 1), (0, 1)⟩,
  ⟨"mS", 42, 23, (0, 1), (1, 1000), (1, 1), (0, 1)⟩,
  ⟨"MS", 42, 23, (0, 1), (1000000, 1), (1, 1), (0, 1)⟩,
  ⟨"nS", 42, 23, (0, 1), (1, 1000000000), (1, 1), (0, 1)⟩,
  ⟨"pS", 42, 23, (0, 1), (1, 1000000000000), (1, 1), (0, 1)⟩,
  ⟨"TS", 42, 23, (0, 1), (1000000000000, 1), (1, 1), (0, 1)⟩,
  ⟨"uS", 42, 23, (0, 1), (1, 1000000), (1, 1), (0, 1)⟩,
  ⟨"S/m", 43, 24, (0, 1), (1, 1), (1, 1), (0, 1)⟩,
  ⟨"kS/m", 43, 24, (0, 1), (1000, 1), (1, 1), (0, 1)⟩,
  ⟨"mS/cm", 43, 24, (0, 1), (1, 10), (1, 1), (0, 1)⟩,
  ⟨"mS/m", 43, 24, (0, 1), (1, 1000), (1, 1), (0, 1)⟩,
  ⟨"F", 44, 25, (0, 1), (1, 1), (1, 1), (0, 1)⟩,
  ⟨"cF", 44, 25, (0, 1), (1, 100), (1, 1), (0, 1)⟩,
  ⟨"dF", 44, 25, (0, 1), (1, 10), (1, 1), (0, 1)⟩,
  ⟨"EF", 44, 25, (0, 1), (1000000000000000000, 1), (1, 1), (0, 1)⟩,
  ⟨"fF", 44, 25, (0, 1), (1, 1000000000000000), (1, 1), (0, 1)⟩,
  ⟨"GF", 44, 25, (0, 1), (1000000000, 1), (1, 1), (0, 1)⟩,
  ⟨"kF", 44, 25, (0, 1), (1000, 1), (1, 1), (0, 1)⟩,
  ⟨"mF", 44, 25, (0, 1), (1, 1000), (1, 1), (0, 1)⟩,
  ⟨"MF", 44, 25, (0, 1), (1000000, 1), (1, 1), (0, 1)⟩,
  ⟨"nF", 44, 25, (0, 1), (1, 1000000000), (1, 1), (0, 1)⟩,
  ⟨"pF", 44, 25, (0, 1), (1, 1000000000000), (1, 1), (0, 1)⟩,
  ⟨"TF", 44, 25, (0, 1), (1000000000000, 1), (1, 1), (0, 1)⟩,
  ⟨"uF", 44, 25, (0, 1), (1, 1000000), (1, 1), (0, 1)⟩,
  ⟨"uF/m", 45, 26, (0, 1), (1, 1000000), (1, 1), (0, 1)⟩,
  ⟨"F/m", 45, 26, (0, 1), (1, 1), (1, 1), (0, 1)⟩,
  ⟨"A.m2", 46, 27, (0, 1), (1, 1), (1, 1), (0, 1)⟩,
  ⟨"C.m", 47, 28, (0, 1), (1, 1), (1, 1), (0, 1)⟩,
  ⟨"C", 48, 29, (0, 1), (1, 1), (1, 1), (0, 1)⟩,
  ⟨"A.h", 48, 29, (0, 1), (3600, 1), (1, 1), (0, 1)⟩,
  ⟨"A.s", 48, 29, (0, 1), (1, 1), (1, 1), (0, 1)⟩,
  ⟨"cC", 48, 29, (0, 1), (1, 100), (1, 1), (0, 1)⟩,
  ⟨"dC", 48, 29, (0, 1), (1, 10), (1, 1), (0, 1)⟩,
  ⟨"EC", 48, 29, (0, 1), (1000000000000000000, 1), (1, 1), (0, 1)⟩,
  ⟨"fC", 48, 29, (0, 1), (1, 1000000000000000), (1, 1), (0, 1)⟩,
  ⟨"GC", 48, 29, (0, 1), (1000000000, 1), (1, 1), (0, 1)⟩,
  ⟨"kC", 48, 29, (0, 1), (1000, 1), (1, 1), (0, 1)⟩,
  ⟨"mC", 48, 29, (0, 1), (1, 1000), (1, 1), (0, 1)⟩,
  ⟨"MC", 48, 29, (0, 1), (1000000, 1), (1, 1), (0, 1)⟩,
  ⟨"nC", 48, 29, (0, 1), (1, 1000000000), (1, 1), (0, 1)⟩,
  ⟨"pC", 48, 29, (0, 1), (1, 1000000000000), (1, 1), (0, 1)⟩,
  ⟨"TC", 48, 29, (0, 1), (1000000000000, 1), (1, 1), (0, 1)⟩,
  ⟨"uC", 48, 29, (0, 1), (1, 1000000), (1, 1), (0, 1)⟩,
  ⟨"C/cm2", 49, 30, (0, 1), (10000, 1), (1, 1), (0, 1)⟩,
  ⟨"C/mm2", 49, 30, (0, 1), (1000000, 1), (1, 1), (0, 1)⟩,
  ⟨"mC/m2", 49, 30, (0, 1), (1, 1000), (1, 1), (0, 1)⟩,
  ⟨"C/m2", 49, 30, (0, 1), (1, 1), (1, 1), (0, 1)⟩,
  ⟨"A.s/m3", 50, 31, (0, 1), (1, 1), (1, 1), (0, 1)⟩,
  ⟨"C/cm3", 50, 31, (0, 1), (1000000, 1), (1, 1), (0, 1)⟩,
  ⟨"C/mm3", 50, 31, (0, 1), (1000000000, 1), (1, 1), (0, 1)⟩,
  ⟨"C/m3", 50, 31, (0, 1), (1, 1), (1, 1), (0, 1)⟩,
  ⟨"A.s/kg", 51, 32, (0, 1), (1, 1), (1, 1), (0, 1)⟩,
  ⟨"C/g", 51, 32, (0, 1), (1000, 1), (1, 1), (0, 1)⟩,
  ⟨"C/kg", 51, 32, (0, 1), (1, 1), (1, 1), (0, 1)⟩,
  ⟨"1/uV", 52, 33, (0, 1), (1000000, 1), (1, 1), (0, 1)⟩,
  ⟨"1/V", 52, 33, (0, 1), (1, 1), (1, 1), (0, 1)⟩,
  ⟨"cd", 53, 34, (0, 1), (1, 1), (1, 1), (0, 1)⟩,
  ⟨"kcd", 53, 34, (0, 1), (1000, 1), (1, 1), (0, 1)⟩,
  ⟨"cd/m2", 54, 35, (0, 1), (1, 1), (1, 1), (0, 1)⟩,
  ⟨"lm", 55, 36, (0, 1), (1, 1), (1, 1), (0, 1)⟩,
  ⟨"lx", 56, 37, (0, 1), (1, 1), (1, 1), (0, 1)⟩,
  ⟨"footcandle", 56, 37, (0, 1), (1, 1), (145161, 1562500), (0, 1)⟩,
  ⟨"lm/m2", 56, 37, (0, 1), (1, 1), (1, 1), (0, 1)⟩,
  ⟨"klx", 56, 37, (0, 1), (1000, 1), (1, 1), (0, 1)⟩,
  ⟨"lm.s", 57, 38, (0, 1), (1, 1), (1, 1), (0, 1)⟩,
  ⟨"lx.s", 58, 39, (0, 1), (1, 1), (1, 1), (0, 1)⟩,
  ⟨"footcandle.s", 58, 39, (0, 1), (1, 1), (145161, 1562500), (0, 1)⟩,
  ⟨"lm/W", 59, 40, (0, 1), (1, 1), (1, 1), (0, 1)⟩,
  ⟨"K", 60, 41, (0, 1), (1, 1), (1, 1), (0, 1)⟩,
  ⟨"degC", 60, 41, (5463, 20), (1, 1), (1, 1), (0, 1)⟩,
  ⟨"degF", 60, 41, (45967, 20), (5, 1), (9, 1), (0, 1)⟩,
  ⟨"degR", 60, 41, (0, 1), (5, 1), (9, 1), (0, 1)⟩,
  ⟨"m", 61, 42, (0, 1), (1, 1), (1, 1), (0, 1)⟩,
  ⟨"angstrom", 61, 42, (0, 1), (1, 10000000000), (1, 1), (0, 1)⟩,
  ⟨"chain", 61, 42, (0, 1), (12573, 625), (1, 1), (0, 1)⟩,
  ⟨"chain[BnA]", 61, 42, (0, 1), (12572989, 625000), (1, 1), (0, 1)⟩,
  ⟨"chain[BnB]", 61, 42, (0, 1), (792, 1), (39370113, 1000000), (0, 1)⟩]

/-- olio/data/properties.json, units 360 to 479 -/
def rows3 : List Row := [
  ⟨"chain[Cla]", 61, 42, (0, 1), (50291548791, 2500000000), (1, 1), (0, 1)⟩,
  ⟨"chain[Ind37]", 61, 42, (0, 1), (1005834753, 50000000), (1, 1), (0, 1)⟩,
  ⟨"chain[Se]", 61, 42, (0, 1), (792, 1), (39370147, 1000000), (0, 1)⟩,
  ⟨"chain[SeT]", 61, 42, (0, 1), (5029189, 250000), (1, 1), (0, 1)⟩,
  ⟨"chain[US]", 61, 42, (0, 1), (792, 1), (3937, 100), (0, 1)⟩,
  ⟨"fathom", 61, 42, (0, 1), (1143, 625), (1, 1), (0, 1)⟩,
  ⟨"ft", 61, 42, (0, 1), (381, 1250), (1, 1), (0, 1)⟩,
  ⟨"ft[BnA]", 61, 42, (0, 1), (1142999, 1250000), (3, 1), (0, 1)⟩,
  ⟨"ft[BnB]", 61, 42, (0, 1), (12, 1), (39370113, 1000000), (0, 1)⟩,
  ⟨"ft[Br36]", 61, 42, (0, 1), (3048007491, 10000000000), (1, 1), (0, 1)⟩,
  ⟨"ft[Br65]", 61, 42, (0, 1), (365761, 400000), (3, 1), (0, 1)⟩,
  ⟨"ft[Cla]", 61, 42, (0, 1), (1523986327, 5000000000), (1, 1), (0, 1)⟩,
  ⟨"ft[GC]", 61, 42, (0, 1), (6378300, 1), (20926201, 1), (0, 1)⟩,
  ⟨"ft[Ind]", 61, 42, (0, 1), (12, 1), (19685071, 500000), (0, 1)⟩,
  ⟨"ft[Ind37]", 61, 42, (0, 1), (30479841, 100000000), (1, 1), (0, 1)⟩,
  ⟨"ft[Ind62]", 61, 42, (0, 1), (761999, 2500000), (1, 1), (0, 1)⟩,
  ⟨"ft[Ind75]", 61, 42, (0, 1), (609599, 2000000), (1, 1), (0, 1)⟩,
  ⟨"ft[Se]", 61, 42, (0, 1), (12, 1), (39370147, 1000000), (0, 1)⟩,
  ⟨"ft[SeT]", 61, 42, (0, 1), (457199, 500000), (3, 1), (0, 1)⟩,
  ⟨"ft[US]", 61, 42, (0, 1), (1200, 1), (3937, 1), (0, 1)⟩,
  ⟨"fur[US]", 61, 42, (0, 1), (792000, 1), (3937, 1), (0, 1)⟩,
  ⟨"in", 61, 42, (0, 1), (127, 5000), (1, 1), (0, 1)⟩,
  ⟨"in[US]", 61, 42, (0, 1), (100, 1), (3937, 1), (0, 1)⟩,
  ⟨"link", 61, 42, (0, 1), (12573, 625), (100, 1), (0, 1)⟩,
  ⟨"link[BnA]", 61, 42, (0, 1), (12572989, 62500000), (1, 1), (0, 1)⟩,
  ⟨"link[BnB]", 61, 42, (0, 1), (198, 25), (39370113, 1000000), (0, 1)⟩,
  ⟨"link[Cla]", 61, 42, (0, 1), (50291548791, 250000000000), (1, 1), (0, 1)⟩,
  ⟨"link[Se]", 61, 42, (0, 1), (198, 25), (39370147, 1000000), (0, 1)⟩,
  ⟨"link[SeT]", 61, 42, (0, 1), (5029189, 25000000), (1, 1), (0, 1)⟩,
  ⟨"link[US]", 61, 42, (0, 1), (198, 25), (3937, 100), (0, 1)⟩,
  ⟨"m[Ger]", 61, 42, (0, 1), (2000027193, 2000000000), (1, 1), (0, 1)⟩,
  ⟨"mi", 61, 42, (0, 1), (201168, 125), (1, 1), (0, 1)⟩,
  ⟨"mi[naut]", 61, 42, (0, 1), (1852, 1), (1, 1), (0, 1)⟩,
  ⟨"mi[nautUK]", 61, 42, (0, 1), (1853, 1), (1, 1), (0, 1)⟩,
  ⟨"mi[US]", 61, 42, (0, 1), (6336000, 1), (3937, 1), (0, 1)⟩,
  ⟨"mil", 61, 42, (0, 1), (127, 5000000), (1, 1), (0, 1)⟩,
  ⟨"rod[US]", 61, 42, (0, 1), (19800, 1), (3937, 1), (0, 1)⟩,
  ⟨"yd", 61, 42, (0, 1), (1143, 1250), (1, 1), (0, 1)⟩,
  ⟨"yd[BnA]", 61, 42, (0, 1), (1142999, 1250000), (1, 1), (0, 1)⟩,
  ⟨"yd[BnB]", 61, 42, (0, 1), (36, 1), (39370113, 1000000), (0, 1)⟩,
  ⟨"yd[Cla]", 61, 42, (0, 1), (4571958981, 5000000000), (1, 1), (0, 1)⟩,
  ⟨"yd[Ind]", 61, 42, (0, 1), (36, 1), (19685071, 500000), (0, 1)⟩,
  ⟨"yd[Ind37]", 61, 42, (0, 1), (91439523, 100000000), (1, 1), (0, 1)⟩,
  ⟨"yd[Ind62]", 61, 42, (0, 1), (2285997, 2500000), (1, 1), (0, 1)⟩,
  ⟨"yd[Ind75]", 61, 42, (0, 1), (1828797, 2000000), (1, 1), (0, 1)⟩,
  ⟨"yd[Se]", 61, 42, (0, 1), (36, 1), (39370147, 1000000), (0, 1)⟩,
  ⟨"yd[SeT]", 61, 42, (0, 1), (457199, 500000), (1, 1), (0, 1)⟩,
  ⟨"yd[US]", 61, 42, (0, 1), (3600, 1), (3937, 1), (0, 1)⟩,
  ⟨"m3/m2", 62, 42, (0, 1), (1, 1), (1, 1), (0, 1)⟩,
  ⟨"0.1 ft", 61, 42, (0, 1), (381, 12500), (1, 1), (0, 1)⟩,
  ⟨"0.1 ft[US]", 61, 42, (0, 1), (1200, 1), (39370, 1), (0, 1)⟩,
  ⟨"0.1 in", 61, 42, (0, 1), (127, 50000), (1, 1), (0, 1)⟩,
  ⟨"0.1 yd", 61, 42, (0, 1), (1143, 12500), (1, 1), (0, 1)⟩,
  ⟨"1/16 in", 61, 42, (0, 1), (127, 5000), (16, 1), (0, 1)⟩,
  ⟨"1/2 ft", 61, 42, (0, 1), (381, 1250), (2, 1), (0, 1)⟩,
  ⟨"1/32 in", 61, 42, (0, 1), (127, 5000), (32, 1), (0, 1)⟩,
  ⟨"1/64 in", 61, 42, (0, 1), (127, 5000), (64, 1), (0, 1)⟩,
  ⟨"10 ft", 61, 42, (0, 1), (381, 125), (1, 1), (0, 1)⟩,
  ⟨"10 in", 61, 42, (0, 1), (127, 500), (1, 1), (0, 1)⟩,
  ⟨"10 km", 61, 42, (0, 1), (10000, 1), (1, 1), (0, 1)⟩,
  ⟨"100 ft", 61, 42, (0, 1), (762, 25), (1, 1), (0, 1)⟩,
  ⟨"100 km", 61, 42, (0, 1), (100000, 1), (1, 1), (0, 1)⟩,
  ⟨"1000 ft", 61, 42, (0, 1), (1524, 5), (1, 1), (0, 1)⟩,
  ⟨"30 ft", 61, 42, (0, 1), (1143, 125), (1, 1), (0, 1)⟩,
  ⟨"30 m", 61, 42, (0, 1), (30, 1), (1, 1), (0, 1)⟩,
  ⟨"1E6 bbl/acre", 62, 42, (0, 1), (12321490713889287, 5000), (62726400000, 1), (0, 1)⟩,
  ⟨"bbl/acre", 62, 42, (0, 1), (12321490713889287, 5000000000), (62726400000, 1), (0, 1)⟩,
  ⟨"ft3/ft2", 62, 42, (0, 1), (381, 1250), (1, 1), (0, 1)⟩,
  ⟨"cm", 61, 42, (0, 1), (1, 100), (1, 1), (0, 1)⟩,
  ⟨"dam", 61, 42, (0, 1), (10, 1), (1, 1), (0, 1)⟩,
  ⟨"dm", 61, 42, (0, 1), (1, 10), (1, 1), (0, 1)⟩,
  ⟨"Em", 61, 42, (0, 1), (1000000000000000000, 1), (1, 1), (0, 1)⟩,
  ⟨"fm", 61, 42, (0, 1), (1, 1000000000000000), (1, 1), (0, 1)⟩,
  ⟨"Gm", 61, 42, (0, 1), (1000000000, 1), (1, 1), (0, 1)⟩,
  ⟨"hm", 61, 42, (0, 1), (100, 1), (1, 1), (0, 1)⟩,
  ⟨"km", 61, 42, (0, 1), (1000, 1), (1, 1), (0, 1)⟩,
  ⟨"Mm", 61, 42, (0, 1), (1000000, 1), (1, 1), (0, 1)⟩,
  ⟨"mm", 61, 42, (0, 1), (1, 1000), (1, 1), (0, 1)⟩,
  ⟨"nm", 61, 42, (0, 1), (1, 1000000000), (1, 1), (0, 1)⟩,
  ⟨"pm", 61, 42, (0, 1), (1, 1000000000000), (1, 1), (0, 1)⟩,
  ⟨"Tm", 61, 42, (0, 1), (1000000000000, 1), (1, 1), (0, 1)⟩,
  ⟨"um", 61, 42, (0, 1), (1, 1000000), (1, 1), (0, 1)⟩,
  ⟨"m/deltaK", 63, 43, (0, 1), (1, 1), (1, 1), (0, 1)⟩,
  ⟨"ft/deltaF", 63, 43, (0, 1), (3429, 1250), (5, 1), (0, 1)⟩,
  ⟨"m/kg", 64, 44, (0, 1), (1, 1), (1, 1), (0, 1)⟩,
  ⟨"ft/lbm", 64, 44, (0, 1), (381, 1250), (45359237, 100000000), (0, 1)⟩,
  ⟨"knot", 65, 45, (0, 1), (1852, 1), (3600, 1), (0, 1)⟩,
  ⟨"m/s", 65, 45, (0, 1), (1, 1), (1, 1), (0, 1)⟩,
  ⟨"m3/(s.m2)", 66, 45, (0, 1), (1, 1), (1, 1), (0, 1)⟩,
  ⟨"1000 ft/h", 65, 45, (0, 1), (1524, 5), (3600, 1), (0, 1)⟩,
  ⟨"1000 ft/s", 65, 45, (0, 1), (1524, 5), (1, 1), (0, 1)⟩,
  ⟨"cm/a", 65, 45, (0, 1), (1, 100), (31557600, 1), (0, 1)⟩,
  ⟨"cm/s", 65, 45, (0, 1), (1, 100), (1, 1), (0, 1)⟩,
  ⟨"dm/s", 65, 45, (0, 1), (1, 10), (1, 1), (0, 1)⟩,
  ⟨"ft/d", 65, 45, (0, 1), (381, 1250), (86400, 1), (0, 1)⟩,
  ⟨"ft/h", 65, 45, (0, 1), (381, 1250), (3600, 1), (0, 1)⟩,
  ⟨"ft/min", 65, 45, (0, 1), (381, 1250), (60, 1), (0, 1)⟩,
  ⟨"ft/ms", 65, 45, (0, 1), (1524, 5), (1, 1), (0, 1)⟩,
  ⟨"ft/s", 65, 45, (0, 1), (381, 1250), (1, 1), (0, 1)⟩,
  ⟨"ft/us", 65, 45, (0, 1), (304800, 1), (1, 1), (0, 1)⟩,
  ⟨"in/a", 65, 45, (0, 1), (127, 5000), (31557600, 1), (0, 1)⟩,
  ⟨"in/min", 65, 45, (0, 1), (127, 5000), (60, 1), (0, 1)⟩,
  ⟨"in/s", 65, 45, (0, 1), (127, 5000), (1, 1), (0, 1)⟩,
  ⟨"km/h", 65, 45, (0, 1), (1, 1), (18, 5), (0, 1)⟩,
  ⟨"km/s", 65, 45, (0, 1), (1000, 1), (1, 1), (0, 1)⟩,
  ⟨"m/d", 65, 45, (0, 1), (1, 1), (86400, 1), (0, 1)⟩,
  ⟨"m/h", 65, 45, (0, 1), (1, 1), (3600, 1), (0, 1)⟩,
  ⟨"m/min", 65, 45, (0, 1), (1, 1), (60, 1), (0, 1)⟩,
  ⟨"m/ms", 65, 45, (0, 1), (1000, 1), (1, 1), (0, 1)⟩,
  ⟨"mi/h", 65, 45, (0, 1), (201168, 125), (3600, 1), (0, 1)⟩,
  ⟨"mil/a", 65, 45, (0, 1), (127, 5000000), (31557600, 1), (0, 1)⟩,
  ⟨"mm/a", 65, 45, (0, 1), (1, 1000), (31557600, 1), (0, 1)⟩,
  ⟨"mm/s", 65, 45, (0, 1), (1, 1000), (1, 1), (0, 1)⟩,
  ⟨"nm/s", 65, 45, (0, 1), (1, 1000000000), (1, 1), (0, 1)⟩,
  ⟨"um/s", 65, 45, (0, 1), (1, 1000000), (1, 1), (0, 1)⟩,
  ⟨"ft3/(min.ft2)", 66, 45, (0, 1), (381, 1250), (60, 1), (0, 1)⟩,
  ⟨"ft3/(s.ft2)", 66, 45, (0, 1), (381, 1250), (1, 1), (0, 1)⟩,
  ⟨"gal[UK]/(h.ft2)", 66, 45, (0, 1), (454609, 100000000), (5225796, 15625), (0, 1)⟩,
  ⟨"gal[UK]/(h.in2)", 66, 45, (0, 1), (454609, 100000000), (145161, 62500), (0, 1)⟩,
  ⟨"gal[UK]/(min.ft2)", 66, 45, (0, 1), (454609, 100000000), (435483, 78125), (0, 1)⟩]

/-- olio/data/properties.json, units 480 to 599 -/
def rows4 : List Row := [
  ⟨"gal[US]/(h.ft2)", 66, 45, (0, 1), (473176473, 125000000000), (5225796, 15625), (0, 1)⟩,
  ⟨"gal[US]/(h.in2)", 66, 45, (0, 1), (473176473, 125000000000), (145161, 62500), (0, 1)⟩,
  ⟨"gal[US]/(min.ft2)", 66, 45, (0, 1), (473176473, 125000000000), (435483, 78125), (0, 1)⟩,
  ⟨"Gal", 67, 46, (0, 1), (1, 100), (1, 1), (0, 1)⟩,
  ⟨"gn", 67, 46, (0, 1), (196133, 20000), (1, 1), (0, 1)⟩,
  ⟨"m/s2", 67, 46, (0, 1), (1, 1), (1, 1), (0, 1)⟩,
  ⟨"cm/s2", 67, 46, (0, 1), (1, 100), (1, 1), (0, 1)⟩,
  ⟨"ft/s2", 67, 46, (0, 1), (381, 1250), (1, 1), (0, 1)⟩,
  ⟨"in/s2", 67, 46, (0, 1), (127, 5000), (1, 1), (0, 1)⟩,
  ⟨"mGal", 67, 46, (0, 1), (1, 100000), (1, 1), (0, 1)⟩,
  ⟨"mgn", 67, 46, (0, 1), (196133, 20000000), (1, 1), (0, 1)⟩,
  ⟨"TD[API]", 68, 47, (0, 1), (1, 1), (1, 1), (0, 1)⟩,
  ⟨"acre", 69, 47, (0, 1), (62726400000, 1), (15499969, 1), (0, 1)⟩,
  ⟨"b", 69, 47, (0, 1), (1, 10000000000000000000000000000), (1, 1), (0, 1)⟩,
  ⟨"ha", 69, 47, (0, 1), (10000, 1), (1, 1), (0, 1)⟩,
  ⟨"section", 69, 47, (0, 1), (40144896000000, 1), (15499969, 1), (0, 1)⟩,
  ⟨"D", 68, 47, (0, 1), (1, 1000000000000), (4053, 4000), (0, 1)⟩,
  ⟨"D[API]", 68, 47, (0, 1), (1, 1000000000000), (1, 1), (0, 1)⟩,
  ⟨"m3/m", 70, 47, (0, 1), (1, 1), (1, 1), (0, 1)⟩,
  ⟨"cm2", 69, 47, (0, 1), (1, 10000), (1, 1), (0, 1)⟩,
  ⟨"km2", 69, 47, (0, 1), (1000000, 1), (1, 1), (0, 1)⟩,
  ⟨"mm2", 69, 47, (0, 1), (1, 1000000), (1, 1), (0, 1)⟩,
  ⟨"um2", 69, 47, (0, 1), (1, 1000000000000), (1, 1), (0, 1)⟩,
  ⟨"0.01 dm3/km", 70, 47, (0, 1), (1, 100000000), (1, 1), (0, 1)⟩,
  ⟨"0.01 L/km", 70, 47, (0, 1), (1, 100000000), (1, 1), (0, 1)⟩,
  ⟨"bbl/ft", 70, 47, (0, 1), (9936705933, 62500000000), (381, 1250), (0, 1)⟩,
  ⟨"bbl/in", 70, 47, (0, 1), (9936705933, 62500000000), (127, 5000), (0, 1)⟩,
  ⟨"bbl/mi", 70, 47, (0, 1), (9936705933, 62500000000), (201168, 125), (0, 1)⟩,
  ⟨"dm3/m", 70, 47, (0, 1), (1, 1000), (1, 1), (0, 1)⟩,
  ⟨"ft3/ft", 70, 47, (0, 1), (145161, 1562500), (1, 1), (0, 1)⟩,
  ⟨"gal[UK]/mi", 70, 47, (0, 1), (454609, 100000000), (201168, 125), (0, 1)⟩,
  ⟨"gal[US]/ft", 70, 47, (0, 1), (473176473, 125000000000), (381, 1250), (0, 1)⟩,
  ⟨"gal[US]/mi", 70, 47, (0, 1), (473176473, 125000000000), (201168, 125), (0, 1)⟩,
  ⟨"in3/ft", 70, 47, (0, 1), (2048383, 125000000000), (381, 1250), (0, 1)⟩,
  ⟨"L/m", 70, 47, (0, 1), (1, 1000), (1, 1), (0, 1)⟩,
  ⟨"m3/km", 70, 47, (0, 1), (1, 1000), (1, 1), (0, 1)⟩,
  ⟨"m2", 69, 47, (0, 1), (1, 1), (1, 1), (0, 1)⟩,
  ⟨"ft2", 69, 47, (0, 1), (145161, 1562500), (1, 1), (0, 1)⟩,
  ⟨"in2", 69, 47, (0, 1), (16129, 25000000), (1, 1), (0, 1)⟩,
  ⟨"mi[US]2", 69, 47, (0, 1), (40144896000000, 1), (15499969, 1), (0, 1)⟩,
  ⟨"mi2", 69, 47, (0, 1), (40468564224, 15625), (1, 1), (0, 1)⟩,
  ⟨"yd2", 69, 47, (0, 1), (1306449, 1562500), (1, 1), (0, 1)⟩,
  ⟨"mD", 68, 47, (0, 1), (1, 1000000000000000), (4053, 4000), (0, 1)⟩,
  ⟨"J/(kg.deltaK)", 71, 48, (0, 1), (1, 1), (1, 1), (0, 1)⟩,
  ⟨"Btu[IT]/(lbm.deltaF)", 71, 48, (0, 1), (20934, 5), (1, 1), (0, 1)⟩,
  ⟨"Btu[IT]/(lbm.deltaR)", 71, 48, (0, 1), (20934, 5), (1, 1), (0, 1)⟩,
  ⟨"cal[th]/(g.deltaK)", 71, 48, (0, 1), (4184, 1), (1, 1), (0, 1)⟩,
  ⟨"J/(g.deltaK)", 71, 48, (0, 1), (1000, 1), (1, 1), (0, 1)⟩,
  ⟨"kcal[th]/(kg.deltaC)", 71, 48, (0, 1), (4184, 1), (1, 1), (0, 1)⟩,
  ⟨"kJ/(kg.deltaK)", 71, 48, (0, 1), (1000, 1), (1, 1), (0, 1)⟩,
  ⟨"kW.h/(kg.deltaC)", 71, 48, (0, 1), (3600000, 1), (1, 1), (0, 1)⟩,
  ⟨"m2/kg", 72, 49, (0, 1), (1, 1), (1, 1), (0, 1)⟩,
  ⟨"cm2/g", 72, 49, (0, 1), (1, 10), (1, 1), (0, 1)⟩,
  ⟨"ft2/lbm", 72, 49, (0, 1), (145161, 1562500), (45359237, 100000000), (0, 1)⟩,
  ⟨"m2/g", 72, 49, (0, 1), (1000, 1), (1, 1), (0, 1)⟩,
  ⟨"m2/mol", 73, 50, (0, 1), (1, 1), (1, 1), (0, 1)⟩,
  ⟨"St", 74, 51, (0, 1), (1, 10000), (1, 1), (0, 1)⟩,
  ⟨"m2/s", 74, 51, (0, 1), (1, 1), (1, 1), (0, 1)⟩,
  ⟨"m3/(s.m)", 75, 51, (0, 1), (1, 1), (1, 1), (0, 1)⟩,
  ⟨"mol.m2/(mol.s)", 76, 51, (0, 1), (1, 1), (1, 1), (0, 1)⟩,
  ⟨"Pa.s.m3/kg", 77, 51, (0, 1), (1, 1), (1, 1), (0, 1)⟩,
  ⟨"W.m2.deltaK/(J.deltaK)", 78, 51, (0, 1), (1, 1), (1, 1), (0, 1)⟩,
  ⟨"cm2/s", 74, 51, (0, 1), (1, 10000), (1, 1), (0, 1)⟩,
  ⟨"ft2/h", 74, 51, (0, 1), (145161, 1562500), (3600, 1), (0, 1)⟩,
  ⟨"ft2/s", 74, 51, (0, 1), (145161, 1562500), (1, 1), (0, 1)⟩,
  ⟨"in2/s", 74, 51, (0, 1), (16129, 25000000), (1, 1), (0, 1)⟩,
  ⟨"m2/d", 74, 51, (0, 1), (1, 1), (86400, 1), (0, 1)⟩,
  ⟨"m2/h", 74, 51, (0, 1), (1, 1), (3600, 1), (0, 1)⟩,
  ⟨"mm2/s", 74, 51, (0, 1), (1, 1000000), (1, 1), (0, 1)⟩,
  ⟨"1000 ft3/(d.ft)", 75, 51, (0, 1), (55306341, 1953125), (658368, 25), (0, 1)⟩,
  ⟨"1000 m3/(d.m)", 75, 51, (0, 1), (1000, 1), (86400, 1), (0, 1)⟩,
  ⟨"1000 m3/(h.m)", 75, 51, (0, 1), (1000, 1), (3600, 1), (0, 1)⟩,
  ⟨"bbl/(d.ft)", 75, 51, (0, 1), (9936705933, 62500000000), (658368, 25), (0, 1)⟩,
  ⟨"ft3/(d.ft)", 75, 51, (0, 1), (145161, 1562500), (86400, 1), (0, 1)⟩,
  ⟨"gal[UK]/(h.ft)", 75, 51, (0, 1), (454609, 100000000), (27432, 25), (0, 1)⟩,
  ⟨"gal[UK]/(h.in)", 75, 51, (0, 1), (454609, 100000000), (2286, 25), (0, 1)⟩,
  ⟨"gal[UK]/(min.ft)", 75, 51, (0, 1), (454609, 100000000), (2286, 125), (0, 1)⟩,
  ⟨"gal[US]/(h.ft)", 75, 51, (0, 1), (473176473, 125000000000), (27432, 25), (0, 1)⟩,
  ⟨"gal[US]/(h.in)", 75, 51, (0, 1), (473176473, 125000000000), (2286, 25), (0, 1)⟩,
  ⟨"gal[US]/(min.ft)", 75, 51, (0, 1), (473176473, 125000000000), (2286, 125), (0, 1)⟩,
  ⟨"m3/(d.m)", 75, 51, (0, 1), (1, 1), (86400, 1), (0, 1)⟩,
  ⟨"m3/(h.m)", 75, 51, (0, 1), (1, 1), (3600, 1), (0, 1)⟩,
  ⟨"m3/(s.ft)", 75, 51, (0, 1), (1, 1), (381, 1250), (0, 1)⟩,
  ⟨"cSt", 74, 51, (0, 1), (1, 1000000), (1, 1), (0, 1)⟩,
  ⟨"rd", 79, 52, (0, 1), (1, 100), (1, 1), (0, 1)⟩,
  ⟨"Gy", 79, 52, (0, 1), (1, 1), (1, 1), (0, 1)⟩,
  ⟨"Sv", 80, 52, (0, 1), (1, 1), (1, 1), (0, 1)⟩,
  ⟨"rem", 80, 52, (0, 1), (1, 100), (1, 1), (0, 1)⟩,
  ⟨"J/kg", 81, 52, (0, 1), (1, 1), (1, 1), (0, 1)⟩,
  ⟨"Btu[IT]/lbm", 81, 52, (0, 1), (2326, 1), (1, 1), (0, 1)⟩,
  ⟨"cal[th]/g", 81, 52, (0, 1), (4184, 1), (1, 1), (0, 1)⟩,
  ⟨"cal[th]/kg", 81, 52, (0, 1), (523, 125), (1, 1), (0, 1)⟩,
  ⟨"cal[th]/lbm", 81, 52, (0, 1), (523, 125), (45359237, 100000000), (0, 1)⟩,
  ⟨"erg/g", 81, 52, (0, 1), (1, 10000), (1, 1), (0, 1)⟩,
  ⟨"erg/kg", 81, 52, (0, 1), (1, 10000000), (1, 1), (0, 1)⟩,
  ⟨"hp.h/lbm", 81, 52, (0, 1), (2684519537696173, 1000000000), (45359237, 100000000), (0, 1)⟩,
  ⟨"J/g", 81, 52, (0, 1), (1000, 1), (1, 1), (0, 1)⟩,
  ⟨"kcal[th]/g", 81, 52, (0, 1), (4184000, 1), (1, 1), (0, 1)⟩,
  ⟨"kcal[th]/kg", 81, 52, (0, 1), (4184, 1), (1, 1), (0, 1)⟩,
  ⟨"kJ/kg", 81, 52, (0, 1), (1000, 1), (1, 1), (0, 1)⟩,
  ⟨"kW.h/kg", 81, 52, (0, 1), (3600000, 1), (1, 1), (0, 1)⟩,
  ⟨"lbf.ft/lbm", 81, 52, (0, 1), (13558179483314003, 10000000000000000), (45359237, 100000000), (0, 1)⟩,
  ⟨"MJ/kg", 81, 52, (0, 1), (1000000, 1), (1, 1), (0, 1)⟩,
  ⟨"MW.h/kg", 81, 52, (0, 1), (3600000000, 1), (1, 1), (0, 1)⟩,
  ⟨"cGy", 79, 52, (0, 1), (1, 100), (1, 1), (0, 1)⟩,
  ⟨"crd", 79, 52, (0, 1), (1, 10000), (1, 1), (0, 1)⟩,
  ⟨"dGy", 79, 52, (0, 1), (1, 10), (1, 1), (0, 1)⟩,
  ⟨"drd", 79, 52, (0, 1), (1, 1000), (1, 1), (0, 1)⟩,
  ⟨"EGy", 79, 52, (0, 1), (1000000000000000000, 1), (1, 1), (0, 1)⟩,
  ⟨"Erd", 79, 52, (0, 1), (10000000000000000, 1), (1, 1), (0, 1)⟩,
  ⟨"fGy", 79, 52, (0, 1), (1, 1000000000000000), (1, 1), (0, 1)⟩,
  ⟨"frd", 79, 52, (0, 1), (1, 100000000000000000), (1, 1), (0, 1)⟩,
  ⟨"GGy", 79, 52, (0, 1), (1000000000, 1), (1, 1), (0, 1)⟩,
  ⟨"Grd", 79, 52, (0, 1), (10000000, 1), (1, 1), (0, 1)⟩,
  ⟨"kGy", 79, 52, (0, 1), (1000, 1), (1, 1), (0, 1)⟩,
  ⟨"krd", 79, 52, (0, 1), (10, 1), (1, 1), (0, 1)⟩,
  ⟨"mGy", 79, 52, (0, 1), (1, 1000), (1, 1), (0, 1)⟩,
  ⟨"MGy", 79, 52, (0, 1), (1000000, 1), (1, 1), (0, 1)⟩,
  ⟨"mrd", 79, 52, (0, 1), (1, 100000), (1, 1), (0, 1)⟩,
  ⟨"Mrd", 79, 52, (0, 1), (10000, 1), (1, 1), (0, 1)⟩]

/-- olio/data/properties.json, units 600 to 719 -/
def rows5 : List Row := [
  ⟨"nGy", 79, 52, (0, 1), (1, 1000000000), (1, 1), (0, 1)⟩,
  ⟨"nrd", 79, 52, (0, 1), (1, 100000000000), (1, 1), (0, 1)⟩,
  ⟨"pGy", 79, 52, (0, 1), (1, 1000000000000), (1, 1), (0, 1)⟩,
  ⟨"prd", 79, 52, (0, 1), (1, 100000000000000), (1, 1), (0, 1)⟩,
  ⟨"TGy", 79, 52, (0, 1), (1000000000000, 1), (1, 1), (0, 1)⟩,
  ⟨"Trd", 79, 52, (0, 1), (10000000000, 1), (1, 1), (0, 1)⟩,
  ⟨"uGy", 79, 52, (0, 1), (1, 1000000), (1, 1), (0, 1)⟩,
  ⟨"urd", 79, 52, (0, 1), (1, 100000000), (1, 1), (0, 1)⟩,
  ⟨"mrem", 80, 52, (0, 1), (1, 100000), (1, 1), (0, 1)⟩,
  ⟨"mSv", 80, 52, (0, 1), (1, 1000), (1, 1), (0, 1)⟩,
  ⟨"Sv/s", 82, 53, (0, 1), (1, 1), (1, 1), (0, 1)⟩,
  ⟨"mrem/h", 82, 53, (0, 1), (1, 100000), (3600, 1), (0, 1)⟩,
  ⟨"mSv/h", 82, 53, (0, 1), (1, 1000), (3600, 1), (0, 1)⟩,
  ⟨"rem/h", 82, 53, (0, 1), (1, 100), (3600, 1), (0, 1)⟩,
  ⟨"Sv/h", 82, 53, (0, 1), (1, 1), (3600, 1), (0, 1)⟩,
  ⟨"kg.m2", 83, 54, (0, 1), (1, 1), (1, 1), (0, 1)⟩,
  ⟨"lbm.ft2", 83, 54, (0, 1), (6584392202157, 156250000000000), (1, 1), (0, 1)⟩,
  ⟨"J/(mol.deltaK)", 84, 55, (0, 1), (1, 1), (1, 1), (0, 1)⟩,
  ⟨"Btu[IT]/(lbmol.deltaF)", 84, 55, (0, 1), (10467, 2500), (1, 1), (0, 1)⟩,
  ⟨"cal[th]/(mol.deltaC)", 84, 55, (0, 1), (523, 125), (1, 1), (0, 1)⟩,
  ⟨"kJ/(kmol.deltaK)", 84, 55, (0, 1), (1, 1), (1, 1), (0, 1)⟩,
  ⟨"J/deltaK", 85, 56, (0, 1), (1, 1), (1, 1), (0, 1)⟩,
  ⟨"W/deltaK", 86, 57, (0, 1), (1, 1), (1, 1), (0, 1)⟩,
  ⟨"H", 87, 58, (0, 1), (1, 1), (1, 1), (0, 1)⟩,
  ⟨"cH", 87, 58, (0, 1), (1, 100), (1, 1), (0, 1)⟩,
  ⟨"dH", 87, 58, (0, 1), (1, 10), (1, 1), (0, 1)⟩,
  ⟨"EH", 87, 58, (0, 1), (1000000000000000000, 1), (1, 1), (0, 1)⟩,
  ⟨"fH", 87, 58, (0, 1), (1, 1000000000000000), (1, 1), (0, 1)⟩,
  ⟨"GH", 87, 58, (0, 1), (1000000000, 1), (1, 1), (0, 1)⟩,
  ⟨"kH", 87, 58, (0, 1), (1000, 1), (1, 1), (0, 1)⟩,
  ⟨"mH", 87, 58, (0, 1), (1, 1000), (1, 1), (0, 1)⟩,
  ⟨"MH", 87, 58, (0, 1), (1000000, 1), (1, 1), (0, 1)⟩,
  ⟨"nH", 87, 58, (0, 1), (1, 1000000000), (1, 1), (0, 1)⟩,
  ⟨"TH", 87, 58, (0, 1), (1000000000000, 1), (1, 1), (0, 1)⟩,
  ⟨"uH", 87, 58, (0, 1), (1, 1000000), (1, 1), (0, 1)⟩,
  ⟨"ohm", 88, 59, (0, 1), (1, 1), (1, 1), (0, 1)⟩,
  ⟨"cohm", 88, 59, (0, 1), (1, 100), (1, 1), (0, 1)⟩,
  ⟨"dohm", 88, 59, (0, 1), (1, 10), (1, 1), (0, 1)⟩,
  ⟨"Eohm", 88, 59, (0, 1), (1000000000000000000, 1), (1, 1), (0, 1)⟩,
  ⟨"fohm", 88, 59, (0, 1), (1, 1000000000000000), (1, 1), (0, 1)⟩,
  ⟨"Gohm", 88, 59, (0, 1), (1000000000, 1), (1, 1), (0, 1)⟩,
  ⟨"kohm", 88, 59, (0, 1), (1000, 1), (1, 1), (0, 1)⟩,
  ⟨"mohm", 88, 59, (0, 1), (1, 1000), (1, 1), (0, 1)⟩,
  ⟨"Mohm", 88, 59, (0, 1), (1000000, 1), (1, 1), (0, 1)⟩,
  ⟨"nohm", 88, 59, (0, 1), (1, 1000000000), (1, 1), (0, 1)⟩,
  ⟨"pohm", 88, 59, (0, 1), (1, 1000000000000), (1, 1), (0, 1)⟩,
  ⟨"Tohm", 88, 59, (0, 1), (1000000000000, 1), (1, 1), (0, 1)⟩,
  ⟨"uohm", 88, 59, (0, 1), (1, 1000000), (1, 1), (0, 1)⟩,
  ⟨"Wb", 89, 60, (0, 1), (1, 1), (1, 1), (0, 1)⟩,
  ⟨"cWb", 89, 60, (0, 1), (1, 100), (1, 1), (0, 1)⟩,
  ⟨"dWb", 89, 60, (0, 1), (1, 10), (1, 1), (0, 1)⟩,
  ⟨"EWb", 89, 60, (0, 1), (1000000000000000000, 1), (1, 1), (0, 1)⟩,
  ⟨"fWb", 89, 60, (0, 1), (1, 1000000000000000), (1, 1), (0, 1)⟩,
  ⟨"GWb", 89, 60, (0, 1), (1000000000, 1), (1, 1), (0, 1)⟩,
  ⟨"kWb", 89, 60, (0, 1), (1000, 1), (1, 1), (0, 1)⟩,
  ⟨"mWb", 89, 60, (0, 1), (1, 1000), (1, 1), (0, 1)⟩,
  ⟨"MWb", 89, 60, (0, 1), (1000000, 1), (1, 1), (0, 1)⟩,
  ⟨"nWb", 89, 60, (0, 1), (1, 1000000000), (1, 1), (0, 1)⟩,
  ⟨"pWb", 89, 60, (0, 1), (1, 1000000000000), (1, 1), (0, 1)⟩,
  ⟨"TWb", 89, 60, (0, 1), (1000000000000, 1), (1, 1), (0, 1)⟩,
  ⟨"uWb", 89, 60, (0, 1), (1, 1000000), (1, 1), (0, 1)⟩,
  ⟨"V", 90, 61, (0, 1), (1, 1), (1, 1), (0, 1)⟩,
  ⟨"cV", 90, 61, (0, 1), (1, 100), (1, 1), (0, 1)⟩,
  ⟨"dV", 90, 61, (0, 1), (1, 10), (1, 1), (0, 1)⟩,
  ⟨"fV", 90, 61, (0, 1), (1, 1000000000000000), (1, 1), (0, 1)⟩,
  ⟨"GV", 90, 61, (0, 1), (1000000000, 1), (1, 1), (0, 1)⟩,
  ⟨"kV", 90, 61, (0, 1), (1000, 1), (1, 1), (0, 1)⟩,
  ⟨"mV", 90, 61, (0, 1), (1, 1000), (1, 1), (0, 1)⟩,
  ⟨"MV", 90, 61, (0, 1), (1000000, 1), (1, 1), (0, 1)⟩,
  ⟨"nV", 90, 61, (0, 1), (1, 1000000000), (1, 1), (0, 1)⟩,
  ⟨"pV", 90, 61, (0, 1), (1, 1000000000000), (1, 1), (0, 1)⟩,
  ⟨"TV", 90, 61, (0, 1), (1000000000000, 1), (1, 1), (0, 1)⟩,
  ⟨"uV", 90, 61, (0, 1), (1, 1000000), (1, 1), (0, 1)⟩,
  ⟨"J/mol", 91, 62, (0, 1), (1, 1), (1, 1), (0, 1)⟩,
  ⟨"Btu[IT]/lbmol", 91, 62, (0, 1), (1163, 500), (1, 1), (0, 1)⟩,
  ⟨"kcal[th]/mol", 91, 62, (0, 1), (4184, 1), (1, 1), (0, 1)⟩,
  ⟨"kJ/kmol", 91, 62, (0, 1), (1, 1), (1, 1), (0, 1)⟩,
  ⟨"MJ/kmol", 91, 62, (0, 1), (1000, 1), (1, 1), (0, 1)⟩,
  ⟨"W/sr", 92, 63, (0, 1), (1, 1), (1, 1), (0, 1)⟩,
  ⟨"J", 93, 64, (0, 1), (1, 1), (1, 1), (0, 1)⟩,
  ⟨"Btu[IT]", 93, 64, (0, 1), (52752792631, 50000000), (1, 1), (0, 1)⟩,
  ⟨"Btu[th]", 93, 64, (0, 1), (23722880951, 2500000), (9, 1), (0, 1)⟩,
  ⟨"Btu[UK]", 93, 64, (0, 1), (26376396314337, 25000000000), (1, 1), (0, 1)⟩,
  ⟨"cal[IT]", 93, 64, (0, 1), (10467, 2500), (1, 1), (0, 1)⟩,
  ⟨"cal[th]", 93, 64, (0, 1), (523, 125), (1, 1), (0, 1)⟩,
  ⟨"erg", 93, 64, (0, 1), (1, 10000000), (1, 1), (0, 1)⟩,
  ⟨"eV", 93, 64, (0, 1), (1602176487, 10000000000000000000000000000), (1, 1), (0, 1)⟩,
  ⟨"quad", 93, 64, (0, 1), (1055055852620000000, 1), (1, 1), (0, 1)⟩,
  ⟨"therm[EC]", 93, 64, (0, 1), (105506000, 1), (1, 1), (0, 1)⟩,
  ⟨"therm[UK]", 93, 64, (0, 1), (26376396314337, 250000), (1, 1), (0, 1)⟩,
  ⟨"therm[US]", 93, 64, (0, 1), (105480400, 1), (1, 1), (0, 1)⟩,
  ⟨"N.m", 94, 64, (0, 1), (1, 1), (1, 1), (0, 1)⟩,
  ⟨"1E6 Btu[IT]", 93, 64, (0, 1), (52752792631, 50), (1, 1), (0, 1)⟩,
  ⟨"GW.h", 93, 64, (0, 1), (3600000000000, 1), (1, 1), (0, 1)⟩,
  ⟨"hp.h", 93, 64, (0, 1), (2684519537696173, 1000000000), (1, 1), (0, 1)⟩,
  ⟨"hp[metric].h", 93, 64, (0, 1), (5295591, 2), (1, 1), (0, 1)⟩,
  ⟨"kW.h", 93, 64, (0, 1), (3600000, 1), (1, 1), (0, 1)⟩,
  ⟨"MW.h", 93, 64, (0, 1), (3600000000, 1), (1, 1), (0, 1)⟩,
  ⟨"TW.h", 93, 64, (0, 1), (3600000000000000, 1), (1, 1), (0, 1)⟩,
  ⟨"1000 lbf.ft", 94, 64, (0, 1), (3389544870828501, 2500000000000), (1, 1), (0, 1)⟩,
  ⟨"daN.m", 94, 64, (0, 1), (10, 1), (1, 1), (0, 1)⟩,
  ⟨"dN.m", 94, 64, (0, 1), (1, 10), (1, 1), (0, 1)⟩,
  ⟨"kgf.m", 94, 64, (0, 1), (196133, 20000), (1, 1), (0, 1)⟩,
  ⟨"kN.m", 94, 64, (0, 1), (1000, 1), (1, 1), (0, 1)⟩,
  ⟨"lbf.ft", 94, 64, (0, 1), (13558179483314003, 10000000000000000), (1, 1), (0, 1)⟩,
  ⟨"lbf.in", 94, 64, (0, 1), (1129848290276167, 10000000000000000), (1, 1), (0, 1)⟩,
  ⟨"lbm.ft2/s2", 94, 64, (0, 1), (6584392202157, 156250000000000), (1, 1), (0, 1)⟩,
  ⟨"pdl.ft", 94, 64, (0, 1), (6584392202157, 156250000000000), (1, 1), (0, 1)⟩,
  ⟨"tonf[US].ft", 94, 64, (0, 1), (2711635896662801, 1000000000000), (1, 1), (0, 1)⟩,
  ⟨"tonf[US].mi", 94, 64, (0, 1), (3579359383594897, 250000000), (1, 1), (0, 1)⟩,
  ⟨"aJ", 93, 64, (0, 1), (1, 1000000000000000000), (1, 1), (0, 1)⟩,
  ⟨"ccal[th]", 93, 64, (0, 1), (523, 12500), (1, 1), (0, 1)⟩,
  ⟨"ceV", 93, 64, (0, 1), (1602176487, 1000000000000000000000000000000), (1, 1), (0, 1)⟩,
  ⟨"cJ", 93, 64, (0, 1), (1, 100), (1, 1), (0, 1)⟩,
  ⟨"dcal[th]", 93, 64, (0, 1), (523, 1250), (1, 1), (0, 1)⟩,
  ⟨"deV", 93, 64, (0, 1), (1602176487, 100000000000000000000000000000), (1, 1), (0, 1)⟩,
  ⟨"dJ", 93, 64, (0, 1), (1, 10), (1, 1), (0, 1)⟩,
  ⟨"Ecal[th]", 93, 64, (0, 1), (4184000000000000000, 1), (1, 1), (0, 1)⟩,
  ⟨"EeV", 93, 64, (0, 1), (1602176487, 10000000000), (1, 1), (0, 1)⟩,
  ⟨"EJ", 93, 64, (0, 1), (1000000000000000000, 1), (1, 1), (0, 1)⟩]

/-- olio/data/properties.json, units 720 to 839 -/
def rows6 : List Row := [
  ⟨"fcal[th]", 93, 64, (0, 1), (523, 125000000000000000), (1, 1), (0, 1)⟩,
  ⟨"feV", 93, 64, (0, 1), (1602176487, 10000000000000000000000000000000000000000000), (1, 1), (0, 1)⟩,
  ⟨"fJ", 93, 64, (0, 1), (1, 1000000000000000), (1, 1), (0, 1)⟩,
  ⟨"Gcal[th]", 93, 64, (0, 1), (4184000000, 1), (1, 1), (0, 1)⟩,
  ⟨"GeV", 93, 64, (0, 1), (1602176487, 10000000000000000000), (1, 1), (0, 1)⟩,
  ⟨"GJ", 93, 64, (0, 1), (1000000000, 1), (1, 1), (0, 1)⟩,
  ⟨"kcal[th]", 93, 64, (0, 1), (4184, 1), (1, 1), (0, 1)⟩,
  ⟨"keV", 93, 64, (0, 1), (1602176487, 10000000000000000000000000), (1, 1), (0, 1)⟩,
  ⟨"kJ", 93, 64, (0, 1), (1000, 1), (1, 1), (0, 1)⟩,
  ⟨"mcal[th]", 93, 64, (0, 1), (523, 125000), (1, 1), (0, 1)⟩,
  ⟨"Mcal[th]", 93, 64, (0, 1), (4184000, 1), (1, 1), (0, 1)⟩,
  ⟨"MeV", 93, 64, (0, 1), (1602176487, 10000000000000000000000), (1, 1), (0, 1)⟩,
  ⟨"meV", 93, 64, (0, 1), (1602176487, 10000000000000000000000000000000), (1, 1), (0, 1)⟩,
  ⟨"mJ", 93, 64, (0, 1), (1, 1000), (1, 1), (0, 1)⟩,
  ⟨"MJ", 93, 64, (0, 1), (1000000, 1), (1, 1), (0, 1)⟩,
  ⟨"ncal[th]", 93, 64, (0, 1), (523, 125000000000), (1, 1), (0, 1)⟩,
  ⟨"neV", 93, 64, (0, 1), (1602176487, 10000000000000000000000000000000000000), (1, 1), (0, 1)⟩,
  ⟨"nJ", 93, 64, (0, 1), (1, 1000000000), (1, 1), (0, 1)⟩,
  ⟨"pcal[th]", 93, 64, (0, 1), (523, 125000000000000), (1, 1), (0, 1)⟩,
  ⟨"peV", 93, 64, (0, 1), (1602176487, 10000000000000000000000000000000000000000), (1, 1), (0, 1)⟩,
  ⟨"pJ", 93, 64, (0, 1), (1, 1000000000000), (1, 1), (0, 1)⟩,
  ⟨"Tcal[th]", 93, 64, (0, 1), (4184000000000, 1), (1, 1), (0, 1)⟩,
  ⟨"TeV", 93, 64, (0, 1), (1602176487, 10000000000000000), (1, 1), (0, 1)⟩,
  ⟨"TJ", 93, 64, (0, 1), (1000000000000, 1), (1, 1), (0, 1)⟩,
  ⟨"ucal[th]", 93, 64, (0, 1), (523, 125000000), (1, 1), (0, 1)⟩,
  ⟨"ueV", 93, 64, (0, 1), (1602176487, 10000000000000000000000000000000000), (1, 1), (0, 1)⟩,
  ⟨"uJ", 93, 64, (0, 1), (1, 1000000), (1, 1), (0, 1)⟩,
  ⟨"W", 95, 65, (0, 1), (1, 1), (1, 1), (0, 1)⟩,
  ⟨"hp", 95, 65, (0, 1), (3728499357911351, 5000000000000), (1, 1), (0, 1)⟩,
  ⟨"hp[elec]", 95, 65, (0, 1), (746, 1), (1, 1), (0, 1)⟩,
  ⟨"hp[hyd]", 95, 65, (0, 1), (746043, 1000), (1, 1), (0, 1)⟩,
  ⟨"hp[metric]", 95, 65, (0, 1), (588399, 800), (1, 1), (0, 1)⟩,
  ⟨"tonRefrig", 95, 65, (0, 1), (158258377893, 12500), (3600, 1), (0, 1)⟩,
  ⟨"J/s", 96, 65, (0, 1), (1, 1), (1, 1), (0, 1)⟩,
  ⟨"1E6 Btu[IT]/h", 96, 65, (0, 1), (52752792631, 50), (3600, 1), (0, 1)⟩,
  ⟨"Btu[IT]/h", 96, 65, (0, 1), (52752792631, 50000000), (3600, 1), (0, 1)⟩,
  ⟨"Btu[IT]/min", 96, 65, (0, 1), (52752792631, 50000000), (60, 1), (0, 1)⟩,
  ⟨"Btu[IT]/s", 96, 65, (0, 1), (52752792631, 50000000), (1, 1), (0, 1)⟩,
  ⟨"cal[th]/h", 96, 65, (0, 1), (523, 125), (3600, 1), (0, 1)⟩,
  ⟨"EJ/a", 96, 65, (0, 1), (1000000000000000000, 1), (31557600, 1), (0, 1)⟩,
  ⟨"erg/a", 96, 65, (0, 1), (1, 10000000), (31557600, 1), (0, 1)⟩,
  ⟨"kcal[th]/h", 96, 65, (0, 1), (4184, 1), (3600, 1), (0, 1)⟩,
  ⟨"lbf.ft/min", 96, 65, (0, 1), (13558179483314003, 10000000000000000), (60, 1), (0, 1)⟩,
  ⟨"lbf.ft/s", 96, 65, (0, 1), (13558179483314003, 10000000000000000), (1, 1), (0, 1)⟩,
  ⟨"MJ/a", 96, 65, (0, 1), (1000000, 1), (31557600, 1), (0, 1)⟩,
  ⟨"quad/a", 96, 65, (0, 1), (1055055852620000000, 1), (31557600, 1), (0, 1)⟩,
  ⟨"TJ/a", 96, 65, (0, 1), (1000000000000, 1), (31557600, 1), (0, 1)⟩,
  ⟨"ucal[th]/s", 96, 65, (0, 1), (523, 125000000), (1, 1), (0, 1)⟩,
  ⟨"cW", 95, 65, (0, 1), (1, 100), (1, 1), (0, 1)⟩,
  ⟨"dW", 95, 65, (0, 1), (1, 10), (1, 1), (0, 1)⟩,
  ⟨"EW", 95, 65, (0, 1), (1000000000000000000, 1), (1, 1), (0, 1)⟩,
  ⟨"fW", 95, 65, (0, 1), (1, 1000000000000000), (1, 1), (0, 1)⟩,
  ⟨"GW", 95, 65, (0, 1), (1000000000, 1), (1, 1), (0, 1)⟩,
  ⟨"kW", 95, 65, (0, 1), (1000, 1), (1, 1), (0, 1)⟩,
  ⟨"mW", 95, 65, (0, 1), (1, 1000), (1, 1), (0, 1)⟩,
  ⟨"MW", 95, 65, (0, 1), (1000000, 1), (1, 1), (0, 1)⟩,
  ⟨"nW", 95, 65, (0, 1), (1, 1000000000), (1, 1), (0, 1)⟩,
  ⟨"pW", 95, 65, (0, 1), (1, 1000000000000), (1, 1), (0, 1)⟩,
  ⟨"TW", 95, 65, (0, 1), (1000000000000, 1), (1, 1), (0, 1)⟩,
  ⟨"uW", 95, 65, (0, 1), (1, 1000000), (1, 1), (0, 1)⟩,
  ⟨"m/Pa", 97, 66, (0, 1), (1, 1), (1, 1), (0, 1)⟩,
  ⟨"ft/psi", 97, 66, (0, 1), (6145149, 31250000000), (8896443230521, 2000000000000), (0, 1)⟩,
  ⟨"m/kPa", 97, 66, (0, 1), (1, 1000), (1, 1), (0, 1)⟩,
  ⟨"bbl", 98, 67, (0, 1), (9936705933, 62500000000), (1, 1), (0, 1)⟩,
  ⟨"floz[UK]", 98, 67, (0, 1), (454609, 100000000), (160, 1), (0, 1)⟩,
  ⟨"floz[US]", 98, 67, (0, 1), (473176473, 125000000000), (128, 1), (0, 1)⟩,
  ⟨"gal[UK]", 98, 67, (0, 1), (454609, 100000000), (1, 1), (0, 1)⟩,
  ⟨"gal[US]", 98, 67, (0, 1), (473176473, 125000000000), (1, 1), (0, 1)⟩,
  ⟨"L", 98, 67, (0, 1), (1, 1000), (1, 1), (0, 1)⟩,
  ⟨"pt[UK]", 98, 67, (0, 1), (454609, 100000000), (8, 1), (0, 1)⟩,
  ⟨"pt[US]", 98, 67, (0, 1), (473176473, 125000000000), (8, 1), (0, 1)⟩,
  ⟨"qt[UK]", 98, 67, (0, 1), (454609, 100000000), (4, 1), (0, 1)⟩,
  ⟨"qt[US]", 98, 67, (0, 1), (473176473, 125000000000), (4, 1), (0, 1)⟩,
  ⟨"TD[API].m", 99, 67, (0, 1), (1, 1), (1, 1), (0, 1)⟩,
  ⟨"1000 bbl", 98, 67, (0, 1), (9936705933, 62500000), (1, 1), (0, 1)⟩,
  ⟨"1000 ft3", 98, 67, (0, 1), (55306341, 1953125), (1, 1), (0, 1)⟩,
  ⟨"1000 gal[UK]", 98, 67, (0, 1), (454609, 100000), (1, 1), (0, 1)⟩,
  ⟨"1000 gal[US]", 98, 67, (0, 1), (473176473, 125000000), (1, 1), (0, 1)⟩,
  ⟨"1000 m3", 98, 67, (0, 1), (1000, 1), (1, 1), (0, 1)⟩,
  ⟨"1E12 ft3", 98, 67, (0, 1), (28316846592, 1), (1, 1), (0, 1)⟩,
  ⟨"1E6 bbl", 98, 67, (0, 1), (9936705933, 62500), (1, 1), (0, 1)⟩,
  ⟨"1E6 ft3", 98, 67, (0, 1), (442450728, 15625), (1, 1), (0, 1)⟩,
  ⟨"1E-6 gal[US]", 98, 67, (0, 1), (473176473, 125000000000000000), (1, 1), (0, 1)⟩,
  ⟨"1E6 m3", 98, 67, (0, 1), (1000000, 1), (1, 1), (0, 1)⟩,
  ⟨"1E9 bbl", 98, 67, (0, 1), (19873411866, 125), (1, 1), (0, 1)⟩,
  ⟨"1E9 ft3", 98, 67, (0, 1), (3539605824, 125), (1, 1), (0, 1)⟩,
  ⟨"acre.ft", 98, 67, (0, 1), (19119006720, 1), (15499969, 1), (0, 1)⟩,
  ⟨"cm3", 98, 67, (0, 1), (1, 1000000), (1, 1), (0, 1)⟩,
  ⟨"dm3", 98, 67, (0, 1), (1, 1000), (1, 1), (0, 1)⟩,
  ⟨"ha.m", 98, 67, (0, 1), (10000, 1), (1, 1), (0, 1)⟩,
  ⟨"km3", 98, 67, (0, 1), (1000000000, 1), (1, 1), (0, 1)⟩,
  ⟨"mm3", 98, 67, (0, 1), (1, 1000000000), (1, 1), (0, 1)⟩,
  ⟨"um2.m", 98, 67, (0, 1), (1, 1000000000000), (1, 1), (0, 1)⟩,
  ⟨"D.ft", 99, 67, (0, 1), (381, 1250000000000000), (4053, 4000), (0, 1)⟩,
  ⟨"D.m", 99, 67, (0, 1), (1, 1000000000000), (4053, 4000), (0, 1)⟩,
  ⟨"mD.ft", 99, 67, (0, 1), (381, 1250000000000000000), (4053, 4000), (0, 1)⟩,
  ⟨"mD.m", 99, 67, (0, 1), (1, 1000000000000000), (4053, 4000), (0, 1)⟩,
  ⟨"m3", 98, 67, (0, 1), (1, 1), (1, 1), (0, 1)⟩,
  ⟨"ft3", 98, 67, (0, 1), (55306341, 1953125000), (1, 1), (0, 1)⟩,
  ⟨"in3", 98, 67, (0, 1), (2048383, 125000000000), (1, 1), (0, 1)⟩,
  ⟨"mi3", 98, 67, (0, 1), (20840909127202897, 5000000), (1, 1), (0, 1)⟩,
  ⟨"yd3", 98, 67, (0, 1), (1493271207, 1953125000), (1, 1), (0, 1)⟩,
  ⟨"hL", 98, 67, (0, 1), (1, 10), (1, 1), (0, 1)⟩,
  ⟨"mL", 98, 67, (0, 1), (1, 1000000), (1, 1), (0, 1)⟩,
  ⟨"m3/rad", 100, 68, (0, 1), (1, 1), (1, 1), (0, 1)⟩,
  ⟨"ft3/rad", 100, 68, (0, 1), (55306341, 1953125000), (1, 1), (0, 1)⟩,
  ⟨"m3/rev", 100, 68, (0, 1), (1, 1), (3141592653589793, 500000000000000), (0, 1)⟩,
  ⟨"m3/kg", 101, 69, (0, 1), (1, 1), (1, 1), (0, 1)⟩,
  ⟨"0.01 L/kg", 101, 69, (0, 1), (1, 100000), (1, 1), (0, 1)⟩,
  ⟨"bbl/ton[UK]", 101, 69, (0, 1), (9936705933, 62500000000), (317514659, 312500), (0, 1)⟩,
  ⟨"bbl/ton[US]", 101, 69, (0, 1), (9936705933, 62500000000), (45359237, 50000), (0, 1)⟩,
  ⟨"cm3/g", 101, 69, (0, 1), (1, 1000), (1, 1), (0, 1)⟩,
  ⟨"dm3/kg", 101, 69, (0, 1), (1, 1000), (1, 1), (0, 1)⟩,
  ⟨"dm3/t", 101, 69, (0, 1), (1, 1000000), (1, 1), (0, 1)⟩,
  ⟨"ft3/kg", 101, 69, (0, 1), (55306341, 1953125000), (1, 1), (0, 1)⟩,
  ⟨"ft3/lbm", 101, 69, (0, 1), (55306341, 1953125000), (45359237, 100000000), (0, 1)⟩,
  ⟨"ft3/sack[94lbm]", 101, 69, (0, 1), (55306341, 1953125000), (2131884139, 50000000), (0, 1)⟩,
  ⟨"gal[UK]/lbm", 101, 69, (0, 1), (454609, 100000000), (45359237, 100000000), (0, 1)⟩,
  ⟨"gal[US]/lbm", 101, 69, (0, 1), (473176473, 125000000000), (45359237, 100000000), (0, 1)⟩,
  ⟨"gal[US]/sack[94lbm]", 101, 69, (0, 1), (473176473, 125000000000), (2131884139, 50000000), (0, 1)⟩]

/-- olio/data/properties.json, units 840 to 959 -/
def rows7 : List Row := [
  ⟨"gal[US]/ton[UK]", 101, 69, (0, 1), (473176473, 125000000000), (317514659, 312500), (0, 1)⟩,
  ⟨"gal[US]/ton[US]", 101, 69, (0, 1), (473176473, 125000000000), (45359237, 50000), (0, 1)⟩,
  ⟨"L/kg", 101, 69, (0, 1), (1, 1000), (1, 1), (0, 1)⟩,
  ⟨"L/t", 101, 69, (0, 1), (1, 1000000), (1, 1), (0, 1)⟩,
  ⟨"L/ton[UK]", 101, 69, (0, 1), (1, 1000), (317514659, 312500), (0, 1)⟩,
  ⟨"m3/g", 101, 69, (0, 1), (1000, 1), (1, 1), (0, 1)⟩,
  ⟨"m3/t", 101, 69, (0, 1), (1, 1000), (1, 1), (0, 1)⟩,
  ⟨"m3/ton[UK]", 101, 69, (0, 1), (1, 1), (317514659, 312500), (0, 1)⟩,
  ⟨"m3/ton[US]", 101, 69, (0, 1), (1, 1), (45359237, 50000), (0, 1)⟩,
  ⟨"m3/mol", 102, 70, (0, 1), (1, 1), (1, 1), (0, 1)⟩,
  ⟨"dm3/kmol", 102, 70, (0, 1), (1, 1000000), (1, 1), (0, 1)⟩,
  ⟨"ft3/lbmol", 102, 70, (0, 1), (55306341, 1953125000), (45359237, 100000), (0, 1)⟩,
  ⟨"L/kmol", 102, 70, (0, 1), (1, 1000000), (1, 1), (0, 1)⟩,
  ⟨"L/mol", 102, 70, (0, 1), (1, 1000), (1, 1), (0, 1)⟩,
  ⟨"m3/kmol", 102, 70, (0, 1), (1, 1000), (1, 1), (0, 1)⟩,
  ⟨"m3/s", 103, 71, (0, 1), (1, 1), (1, 1), (0, 1)⟩,
  ⟨"1/30 cm3/min", 103, 71, (0, 1), (1, 1000000), (1800, 1), (0, 1)⟩,
  ⟨"1000 bbl/d", 103, 71, (0, 1), (9936705933, 62500000), (86400, 1), (0, 1)⟩,
  ⟨"1000 ft3/d", 103, 71, (0, 1), (55306341, 1953125), (86400, 1), (0, 1)⟩,
  ⟨"1000 m3/d", 103, 71, (0, 1), (1000, 1), (86400, 1), (0, 1)⟩,
  ⟨"1000 m3/h", 103, 71, (0, 1), (1000, 1), (3600, 1), (0, 1)⟩,
  ⟨"1E6 bbl/d", 103, 71, (0, 1), (9936705933, 62500), (86400, 1), (0, 1)⟩,
  ⟨"1E6 ft3/d", 103, 71, (0, 1), (442450728, 15625), (86400, 1), (0, 1)⟩,
  ⟨"1E6 m3/d", 103, 71, (0, 1), (1000000, 1), (86400, 1), (0, 1)⟩,
  ⟨"bbl/d", 103, 71, (0, 1), (9936705933, 62500000000), (86400, 1), (0, 1)⟩,
  ⟨"bbl/h", 103, 71, (0, 1), (9936705933, 62500000000), (3600, 1), (0, 1)⟩,
  ⟨"bbl/min", 103, 71, (0, 1), (9936705933, 62500000000), (60, 1), (0, 1)⟩,
  ⟨"cm3/h", 103, 71, (0, 1), (1, 1000000), (3600, 1), (0, 1)⟩,
  ⟨"cm3/min", 103, 71, (0, 1), (1, 1000000), (60, 1), (0, 1)⟩,
  ⟨"cm3/s", 103, 71, (0, 1), (1, 1000000), (1, 1), (0, 1)⟩,
  ⟨"dm3/s", 103, 71, (0, 1), (1, 1000), (1, 1), (0, 1)⟩,
  ⟨"ft3/d", 103, 71, (0, 1), (55306341, 1953125000), (86400, 1), (0, 1)⟩,
  ⟨"ft3/h", 103, 71, (0, 1), (55306341, 1953125000), (3600, 1), (0, 1)⟩,
  ⟨"ft3/min", 103, 71, (0, 1), (55306341, 1953125000), (60, 1), (0, 1)⟩,
  ⟨"ft3/s", 103, 71, (0, 1), (55306341, 1953125000), (1, 1), (0, 1)⟩,
  ⟨"gal[UK]/d", 103, 71, (0, 1), (454609, 100000000), (86400, 1), (0, 1)⟩,
  ⟨"gal[UK]/h", 103, 71, (0, 1), (454609, 100000000), (3600, 1), (0, 1)⟩,
  ⟨"gal[UK]/min", 103, 71, (0, 1), (454609, 100000000), (60, 1), (0, 1)⟩,
  ⟨"gal[US]/d", 103, 71, (0, 1), (473176473, 125000000000), (86400, 1), (0, 1)⟩,
  ⟨"gal[US]/h", 103, 71, (0, 1), (473176473, 125000000000), (3600, 1), (0, 1)⟩,
  ⟨"gal[US]/min", 103, 71, (0, 1), (473176473, 125000000000), (60, 1), (0, 1)⟩,
  ⟨"L/h", 103, 71, (0, 1), (1, 1000), (3600, 1), (0, 1)⟩,
  ⟨"L/min", 103, 71, (0, 1), (1, 1000), (60, 1), (0, 1)⟩,
  ⟨"L/s", 103, 71, (0, 1), (1, 1000), (1, 1), (0, 1)⟩,
  ⟨"m3/d", 103, 71, (0, 1), (1, 1), (86400, 1), (0, 1)⟩,
  ⟨"m3/h", 103, 71, (0, 1), (1, 1), (3600, 1), (0, 1)⟩,
  ⟨"m3/min", 103, 71, (0, 1), (1, 1), (60, 1), (0, 1)⟩,
  ⟨"m3/s2", 104, 72, (0, 1), (1, 1), (1, 1), (0, 1)⟩,
  ⟨"bbl/d2", 104, 72, (0, 1), (9936705933, 62500000000), (7464960000, 1), (0, 1)⟩,
  ⟨"bbl/h2", 104, 72, (0, 1), (9936705933, 62500000000), (12960000, 1), (0, 1)⟩,
  ⟨"dm3/s2", 104, 72, (0, 1), (1, 1000), (1, 1), (0, 1)⟩,
  ⟨"ft3/d2", 104, 72, (0, 1), (55306341, 1953125000), (7464960000, 1), (0, 1)⟩,
  ⟨"ft3/h2", 104, 72, (0, 1), (55306341, 1953125000), (12960000, 1), (0, 1)⟩,
  ⟨"ft3/min2", 104, 72, (0, 1), (55306341, 1953125000), (3600, 1), (0, 1)⟩,
  ⟨"ft3/s2", 104, 72, (0, 1), (55306341, 1953125000), (1, 1), (0, 1)⟩,
  ⟨"gal[UK]/h2", 104, 72, (0, 1), (454609, 100000000), (12960000, 1), (0, 1)⟩,
  ⟨"gal[UK]/min2", 104, 72, (0, 1), (454609, 100000000), (3600, 1), (0, 1)⟩,
  ⟨"gal[US]/h2", 104, 72, (0, 1), (473176473, 125000000000), (12960000, 1), (0, 1)⟩,
  ⟨"gal[US]/min2", 104, 72, (0, 1), (473176473, 125000000000), (3600, 1), (0, 1)⟩,
  ⟨"L/s2", 104, 72, (0, 1), (1, 1000), (1, 1), (0, 1)⟩,
  ⟨"m3/d2", 104, 72, (0, 1), (1, 1), (7464960000, 1), (0, 1)⟩,
  ⟨"ohm.m", 105, 73, (0, 1), (1, 1), (1, 1), (0, 1)⟩,
  ⟨"kohm.m", 105, 73, (0, 1), (1000, 1), (1, 1), (0, 1)⟩,
  ⟨"nohm.mil2/ft", 105, 73, (0, 1), (16129, 25000000000000000000000), (381, 1250), (0, 1)⟩,
  ⟨"nohm.mm2/m", 105, 73, (0, 1), (1, 1000000000000000), (1, 1), (0, 1)⟩,
  ⟨"ohm.cm", 105, 73, (0, 1), (1, 100), (1, 1), (0, 1)⟩,
  ⟨"ohm.m2/m", 105, 73, (0, 1), (1, 1), (1, 1), (0, 1)⟩,
  ⟨"Wb.m", 106, 74, (0, 1), (1, 1), (1, 1), (0, 1)⟩,
  ⟨"N.m2", 107, 75, (0, 1), (1, 1), (1, 1), (0, 1)⟩,
  ⟨"dyne.cm2", 107, 75, (0, 1), (1, 1000000000), (1, 1), (0, 1)⟩,
  ⟨"kgf.m2", 107, 75, (0, 1), (196133, 20000), (1, 1), (0, 1)⟩,
  ⟨"kN.m2", 107, 75, (0, 1), (1000, 1), (1, 1), (0, 1)⟩,
  ⟨"lbf.in2", 107, 75, (0, 1), (358726832162683, 125000000000000000), (1, 1), (0, 1)⟩,
  ⟨"mN.m2", 107, 75, (0, 1), (1, 1000), (1, 1), (0, 1)⟩,
  ⟨"pdl.cm2", 107, 75, (0, 1), (17281869297, 1250000000000000), (1, 1), (0, 1)⟩,
  ⟨"tonf[UK].ft2", 107, 75, (0, 1), (9256874158591603, 10000000000000), (1, 1), (0, 1)⟩,
  ⟨"tonf[US].ft2", 107, 75, (0, 1), (8265066213028217, 10000000000000), (1, 1), (0, 1)⟩,
  ⟨"m2/(Pa.s)", 108, 76, (0, 1), (1, 1), (1, 1), (0, 1)⟩,
  ⟨"TD[API]/(Pa.s)", 109, 76, (0, 1), (1, 1), (1, 1), (0, 1)⟩,
  ⟨"bbl/(ft.psi.d)", 108, 76, (0, 1), (10257224319574849, 100000000000000000000), (11714267073583299, 100000000000), (0, 1)⟩,
  ⟨"ft3/(ft.psi.d)", 108, 76, (0, 1), (2341301769, 39062500000000), (240203967224067, 625000000), (0, 1)⟩,
  ⟨"m2/(kPa.d)", 108, 76, (0, 1), (1, 1), (86400000, 1), (0, 1)⟩,
  ⟨"D/(Pa.s)", 109, 76, (0, 1), (1, 1000000000000), (4053, 4000), (0, 1)⟩,
  ⟨"D/cP", 109, 76, (0, 1), (1, 1000000000), (4053, 4000), (0, 1)⟩,
  ⟨"mD.ft2/(lbf.s)", 109, 76, (0, 1), (145161, 1562500000000000000000), (2253580275831351, 500000000000000), (0, 1)⟩,
  ⟨"mD.in2/(lbf.s)", 109, 76, (0, 1), (16129, 25000000000000000000000), (2253580275831351, 500000000000000), (0, 1)⟩,
  ⟨"mD/(Pa.s)", 109, 76, (0, 1), (1, 1000000000000000), (4053, 4000), (0, 1)⟩,
  ⟨"mD/cP", 109, 76, (0, 1), (1, 1000000000000), (4053, 4000), (0, 1)⟩,
  ⟨"cm4", 110, 77, (0, 1), (1, 100000000), (1, 1), (0, 1)⟩,
  ⟨"m4", 110, 77, (0, 1), (1, 1), (1, 1), (0, 1)⟩,
  ⟨"in4", 110, 77, (0, 1), (260144641, 625000000000000), (1, 1), (0, 1)⟩,
  ⟨"m4/s", 111, 78, (0, 1), (1, 1), (1, 1), (0, 1)⟩,
  ⟨"1000 bbl.ft/d", 111, 78, (0, 1), (3785884960473, 78125000000), (86400, 1), (0, 1)⟩,
  ⟨"1000 m4/d", 111, 78, (0, 1), (1000, 1), (86400, 1), (0, 1)⟩,
  ⟨"m3/(Pa.s)", 112, 79, (0, 1), (1, 1), (1, 1), (0, 1)⟩,
  ⟨"1000 ft3/(psi.d)", 112, 79, (0, 1), (892035973989, 48828125000000), (240203967224067, 625000000), (0, 1)⟩,
  ⟨"bbl/(kPa.d)", 112, 79, (0, 1), (9936705933, 62500000000), (86400000, 1), (0, 1)⟩,
  ⟨"bbl/(psi.d)", 112, 79, (0, 1), (10257224319574849, 100000000000000000000), (240203967224067, 625000000), (0, 1)⟩,
  ⟨"L/(bar.min)", 112, 79, (0, 1), (1, 1000), (6000000, 1), (0, 1)⟩,
  ⟨"m3/(bar.d)", 112, 79, (0, 1), (1, 1), (8640000000, 1), (0, 1)⟩,
  ⟨"m3/(bar.h)", 112, 79, (0, 1), (1, 1), (360000000, 1), (0, 1)⟩,
  ⟨"m3/(bar.min)", 112, 79, (0, 1), (1, 1), (6000000, 1), (0, 1)⟩,
  ⟨"m3/(kPa.d)", 112, 79, (0, 1), (1, 1), (86400000, 1), (0, 1)⟩,
  ⟨"m3/(kPa.h)", 112, 79, (0, 1), (1, 1), (3600000, 1), (0, 1)⟩,
  ⟨"m3/(psi.d)", 112, 79, (0, 1), (16129, 25000000), (240203967224067, 625000000), (0, 1)⟩,
  ⟨"m3/Pa", 113, 80, (0, 1), (1, 1), (1, 1), (0, 1)⟩,
  ⟨"bbl/psi", 113, 80, (0, 1), (10257224319574849, 100000000000000000000), (8896443230521, 2000000000000), (0, 1)⟩,
  ⟨"m3/kPa", 113, 80, (0, 1), (1, 1000), (1, 1), (0, 1)⟩,
  ⟨"kg.m", 114, 81, (0, 1), (1, 1), (1, 1), (0, 1)⟩,
  ⟨"lbm.ft", 114, 81, (0, 1), (17281869297, 125000000000), (1, 1), (0, 1)⟩,
  ⟨"J.m/(s.m2.deltaK)", 115, 82, (0, 1), (1, 1), (1, 1), (0, 1)⟩,
  ⟨"W/(m.deltaK)", 116, 82, (0, 1), (1, 1), (1, 1), (0, 1)⟩,
  ⟨"Btu[IT].in/(h.ft2.deltaF)", 115, 82, (0, 1), (60296441977233, 250000000000), (5225796, 3125), (0, 1)⟩,
  ⟨"kJ.m/(h.m2.deltaK)", 115, 82, (0, 1), (1, 1), (18, 5), (0, 1)⟩,
  ⟨"Btu[IT]/(h.ft.deltaF)", 116, 82, (0, 1), (474775133679, 50000000), (27432, 5), (0, 1)⟩,
  ⟨"cal[th]/(h.cm.deltaC)", 116, 82, (0, 1), (523, 125), (36, 1), (0, 1)⟩,
  ⟨"cal[th]/(s.cm.deltaC)", 116, 82, (0, 1), (2092, 5), (1, 1), (0, 1)⟩,
  ⟨"kcal[th]/(h.m.deltaC)", 116, 82, (0, 1), (4184, 1), (3600, 1), (0, 1)⟩,
  ⟨"uH/m", 117, 83, (0, 1), (1, 1000000), (1, 1), (0, 1)⟩,
  ⟨"H/m", 117, 83, (0, 1), (1, 1), (1, 1), (0, 1)⟩]

/-- olio/data/properties.json, units 960 to 1079 -/
def rows8 : List Row := [
  ⟨"ohm/m", 118, 84, (0, 1), (1, 1), (1, 1), (0, 1)⟩,
  ⟨"uohm/ft", 118, 84, (0, 1), (1, 1000000), (381, 1250), (0, 1)⟩,
  ⟨"uohm/m", 118, 84, (0, 1), (1, 1000000), (1, 1), (0, 1)⟩,
  ⟨"Wb/m", 119, 85, (0, 1), (1, 1), (1, 1), (0, 1)⟩,
  ⟨"Wb/mm", 119, 85, (0, 1), (1000, 1), (1, 1), (0, 1)⟩,
  ⟨"V/m", 120, 86, (0, 1), (1, 1), (1, 1), (0, 1)⟩,
  ⟨"mV/ft", 120, 86, (0, 1), (1, 1000), (381, 1250), (0, 1)⟩,
  ⟨"mV/m", 120, 86, (0, 1), (1, 1000), (1, 1), (0, 1)⟩,
  ⟨"uV/ft", 120, 86, (0, 1), (1, 1000000), (381, 1250), (0, 1)⟩,
  ⟨"uV/m", 120, 86, (0, 1), (1, 1000000), (1, 1), (0, 1)⟩,
  ⟨"kg.m/s", 121, 87, (0, 1), (1, 1), (1, 1), (0, 1)⟩,
  ⟨"lbm.ft/s", 121, 87, (0, 1), (17281869297, 125000000000), (1, 1), (0, 1)⟩,
  ⟨"N", 122, 88, (0, 1), (1, 1), (1, 1), (0, 1)⟩,
  ⟨"dyne", 122, 88, (0, 1), (1, 100000), (1, 1), (0, 1)⟩,
  ⟨"gf", 122, 88, (0, 1), (196133, 20000000), (1, 1), (0, 1)⟩,
  ⟨"lbf", 122, 88, (0, 1), (8896443230521, 2000000000000), (1, 1), (0, 1)⟩,
  ⟨"ozf", 122, 88, (0, 1), (8896443230521, 2000000000000), (16, 1), (0, 1)⟩,
  ⟨"pdl", 122, 88, (0, 1), (17281869297, 125000000000), (1, 1), (0, 1)⟩,
  ⟨"tonf[UK]", 122, 88, (0, 1), (62275102613647, 6250000000), (1, 1), (0, 1)⟩,
  ⟨"tonf[US]", 122, 88, (0, 1), (8896443230521, 1000000000), (1, 1), (0, 1)⟩,
  ⟨"J.m/m2", 123, 88, (0, 1), (1, 1), (1, 1), (0, 1)⟩,
  ⟨"J/m", 124, 88, (0, 1), (1, 1), (1, 1), (0, 1)⟩,
  ⟨"N.m/m", 125, 88, (0, 1), (1, 1), (1, 1), (0, 1)⟩,
  ⟨"kcal[th].m/cm2", 123, 88, (0, 1), (41840000, 1), (1, 1), (0, 1)⟩,
  ⟨"MJ/m", 124, 88, (0, 1), (1000000, 1), (1, 1), (0, 1)⟩,
  ⟨"10 kN", 122, 88, (0, 1), (10000, 1), (1, 1), (0, 1)⟩,
  ⟨"kgf.m/m", 125, 88, (0, 1), (196133, 20000), (1, 1), (0, 1)⟩,
  ⟨"lbf.ft/in", 125, 88, (0, 1), (26689329691563, 500000000000), (1, 1), (0, 1)⟩,
  ⟨"lbf.in/in", 125, 88, (0, 1), (8896443230521, 2000000000000), (1, 1), (0, 1)⟩,
  ⟨"tonf[US].mi/ft", 125, 88, (0, 1), (293582626607193, 6250000), (1, 1), (0, 1)⟩,
  ⟨"cN", 122, 88, (0, 1), (1, 100), (1, 1), (0, 1)⟩,
  ⟨"daN", 122, 88, (0, 1), (10, 1), (1, 1), (0, 1)⟩,
  ⟨"dN", 122, 88, (0, 1), (1, 10), (1, 1), (0, 1)⟩,
  ⟨"EN", 122, 88, (0, 1), (1000000000000000000, 1), (1, 1), (0, 1)⟩,
  ⟨"fN", 122, 88, (0, 1), (1, 1000000000000000), (1, 1), (0, 1)⟩,
  ⟨"GN", 122, 88, (0, 1), (1000000000, 1), (1, 1), (0, 1)⟩,
  ⟨"hN", 122, 88, (0, 1), (100, 1), (1, 1), (0, 1)⟩,
  ⟨"kdyne", 122, 88, (0, 1), (1, 100), (1, 1), (0, 1)⟩,
  ⟨"kgf", 122, 88, (0, 1), (196133, 20000), (1, 1), (0, 1)⟩,
  ⟨"klbf", 122, 88, (0, 1), (8896443230521, 2000000000), (1, 1), (0, 1)⟩,
  ⟨"kN", 122, 88, (0, 1), (1000, 1), (1, 1), (0, 1)⟩,
  ⟨"Mgf", 122, 88, (0, 1), (196133, 20), (1, 1), (0, 1)⟩,
  ⟨"mN", 122, 88, (0, 1), (1, 1000), (1, 1), (0, 1)⟩,
  ⟨"MN", 122, 88, (0, 1), (1000000, 1), (1, 1), (0, 1)⟩,
  ⟨"nN", 122, 88, (0, 1), (1, 1000000000), (1, 1), (0, 1)⟩,
  ⟨"pN", 122, 88, (0, 1), (1, 1000000000000), (1, 1), (0, 1)⟩,
  ⟨"TN", 122, 88, (0, 1), (1000000000000, 1), (1, 1), (0, 1)⟩,
  ⟨"uN", 122, 88, (0, 1), (1, 1000000), (1, 1), (0, 1)⟩,
  ⟨"1/bar", 126, 89, (0, 1), (1, 100000), (1, 1), (0, 1)⟩,
  ⟨"1/kPa", 126, 89, (0, 1), (1, 1000), (1, 1), (0, 1)⟩,
  ⟨"1/pPa", 126, 89, (0, 1), (1000000000000, 1), (1, 1), (0, 1)⟩,
  ⟨"1/psi", 126, 89, (0, 1), (16129, 25000000), (8896443230521, 2000000000000), (0, 1)⟩,
  ⟨"1/upsi", 126, 89, (0, 1), (16129, 25), (8896443230521, 2000000000000), (0, 1)⟩,
  ⟨"1/Pa", 126, 89, (0, 1), (1, 1), (1, 1), (0, 1)⟩,
  ⟨"m3/J", 127, 89, (0, 1), (1, 1), (1, 1), (0, 1)⟩,
  ⟨"dm3/(kW.h)", 127, 89, (0, 1), (1, 1000), (3600000, 1), (0, 1)⟩,
  ⟨"dm3/MJ", 127, 89, (0, 1), (1, 1000000000), (1, 1), (0, 1)⟩,
  ⟨"m3/(kW.h)", 127, 89, (0, 1), (1, 1), (3600000, 1), (0, 1)⟩,
  ⟨"mm3/J", 127, 89, (0, 1), (1, 1000000000), (1, 1), (0, 1)⟩,
  ⟨"pt[UK]/(hp.h)", 127, 89, (0, 1), (454609, 800000000), (2684519537696173, 1000000000), (0, 1)⟩,
  ⟨"ct", 128, 90, (0, 1), (1, 5000), (1, 1), (0, 1)⟩,
  ⟨"cwt[UK]", 128, 90, (0, 1), (317514659, 6250000), (1, 1), (0, 1)⟩,
  ⟨"cwt[US]", 128, 90, (0, 1), (45359237, 1000000), (1, 1), (0, 1)⟩,
  ⟨"g", 128, 90, (0, 1), (1, 1000), (1, 1), (0, 1)⟩,
  ⟨"grain", 128, 90, (0, 1), (6479891, 100000000000), (1, 1), (0, 1)⟩,
  ⟨"lbm", 128, 90, (0, 1), (45359237, 100000000), (1, 1), (0, 1)⟩,
  ⟨"ozm", 128, 90, (0, 1), (45359237, 100000000), (16, 1), (0, 1)⟩,
  ⟨"ozm[troy]", 128, 90, (0, 1), (19439673, 625000000), (1, 1), (0, 1)⟩,
  ⟨"sack[94lbm]", 128, 90, (0, 1), (2131884139, 50000000), (1, 1), (0, 1)⟩,
  ⟨"t", 128, 90, (0, 1), (1000, 1), (1, 1), (0, 1)⟩,
  ⟨"ton[UK]", 128, 90, (0, 1), (317514659, 312500), (1, 1), (0, 1)⟩,
  ⟨"ton[US]", 128, 90, (0, 1), (45359237, 50000), (1, 1), (0, 1)⟩,
  ⟨"kg", 128, 90, (0, 1), (1, 1), (1, 1), (0, 1)⟩,
  ⟨"ag", 128, 90, (0, 1), (1, 1000000000000000000000), (1, 1), (0, 1)⟩,
  ⟨"cg", 128, 90, (0, 1), (1, 100000), (1, 1), (0, 1)⟩,
  ⟨"Eg", 128, 90, (0, 1), (1000000000000000, 1), (1, 1), (0, 1)⟩,
  ⟨"fg", 128, 90, (0, 1), (1, 1000000000000000000), (1, 1), (0, 1)⟩,
  ⟨"Gg", 128, 90, (0, 1), (1000000, 1), (1, 1), (0, 1)⟩,
  ⟨"hg", 128, 90, (0, 1), (1, 10), (1, 1), (0, 1)⟩,
  ⟨"klbm", 128, 90, (0, 1), (45359237, 100000), (1, 1), (0, 1)⟩,
  ⟨"mg", 128, 90, (0, 1), (1, 1000000), (1, 1), (0, 1)⟩,
  ⟨"Mg", 128, 90, (0, 1), (1000, 1), (1, 1), (0, 1)⟩,
  ⟨"ng", 128, 90, (0, 1), (1, 1000000000000), (1, 1), (0, 1)⟩,
  ⟨"pg", 128, 90, (0, 1), (1, 1000000000000000), (1, 1), (0, 1)⟩,
  ⟨"Tg", 128, 90, (0, 1), (1000000000, 1), (1, 1), (0, 1)⟩,
  ⟨"ug", 128, 90, (0, 1), (1, 1000000000), (1, 1), (0, 1)⟩,
  ⟨"W/(m3.deltaK)", 129, 91, (0, 1), (1, 1), (1, 1), (0, 1)⟩,
  ⟨"Btu[IT]/(h.ft3.deltaF)", 129, 91, (0, 1), (474775133679, 50000000), (995514138, 1953125), (0, 1)⟩,
  ⟨"Btu[IT]/(s.ft3.deltaF)", 129, 91, (0, 1), (474775133679, 50000000), (55306341, 390625000), (0, 1)⟩,
  ⟨"kW/(m3.deltaK)", 129, 91, (0, 1), (1000, 1), (1, 1), (0, 1)⟩,
  ⟨"W/(m2.deltaK)", 130, 92, (0, 1), (1, 1), (1, 1), (0, 1)⟩,
  ⟨"Btu[IT]/(h.ft2.deltaF)", 130, 92, (0, 1), (474775133679, 50000000), (5225796, 3125), (0, 1)⟩,
  ⟨"Btu[IT]/(h.ft2.deltaR)", 130, 92, (0, 1), (474775133679, 50000000), (5225796, 3125), (0, 1)⟩,
  ⟨"Btu[IT]/(h.m2.deltaC)", 130, 92, (0, 1), (52752792631, 50000000), (3600, 1), (0, 1)⟩,
  ⟨"Btu[IT]/(s.ft2.deltaF)", 130, 92, (0, 1), (474775133679, 50000000), (145161, 312500), (0, 1)⟩,
  ⟨"cal[th]/(h.cm2.deltaC)", 130, 92, (0, 1), (41840, 1), (3600, 1), (0, 1)⟩,
  ⟨"cal[th]/(s.cm2.deltaC)", 130, 92, (0, 1), (41840, 1), (1, 1), (0, 1)⟩,
  ⟨"J/(s.m2.deltaC)", 130, 92, (0, 1), (1, 1), (1, 1), (0, 1)⟩,
  ⟨"kcal[th]/(h.m2.deltaC)", 130, 92, (0, 1), (4184, 1), (3600, 1), (0, 1)⟩,
  ⟨"kJ/(h.m2.deltaK)", 130, 92, (0, 1), (1000, 1), (3600, 1), (0, 1)⟩,
  ⟨"kW/(m2.deltaK)", 130, 92, (0, 1), (1000, 1), (1, 1), (0, 1)⟩,
  ⟨"T/m", 131, 93, (0, 1), (1, 1), (1, 1), (0, 1)⟩,
  ⟨"gauss/cm", 131, 93, (0, 1), (1, 100), (1, 1), (0, 1)⟩,
  ⟨"mT/dm", 131, 93, (0, 1), (1, 100), (1, 1), (0, 1)⟩,
  ⟨"T", 132, 94, (0, 1), (1, 1), (1, 1), (0, 1)⟩,
  ⟨"gauss", 132, 94, (0, 1), (1, 10000), (1, 1), (0, 1)⟩,
  ⟨"cgauss", 132, 94, (0, 1), (1, 1000000), (1, 1), (0, 1)⟩,
  ⟨"cT", 132, 94, (0, 1), (1, 100), (1, 1), (0, 1)⟩,
  ⟨"dgauss", 132, 94, (0, 1), (1, 100000), (1, 1), (0, 1)⟩,
  ⟨"dT", 132, 94, (0, 1), (1, 10), (1, 1), (0, 1)⟩,
  ⟨"Egauss", 132, 94, (0, 1), (100000000000000, 1), (1, 1), (0, 1)⟩,
  ⟨"ET", 132, 94, (0, 1), (1000000000000000000, 1), (1, 1), (0, 1)⟩,
  ⟨"fgauss", 132, 94, (0, 1), (1, 10000000000000000000), (1, 1), (0, 1)⟩,
  ⟨"fT", 132, 94, (0, 1), (1, 1000000000000000), (1, 1), (0, 1)⟩,
  ⟨"Ggauss", 132, 94, (0, 1), (100000, 1), (1, 1), (0, 1)⟩,
  ⟨"GT", 132, 94, (0, 1), (1000000000, 1), (1, 1), (0, 1)⟩,
  ⟨"kgauss", 132, 94, (0, 1), (1, 10), (1, 1), (0, 1)⟩,
  ⟨"kT", 132, 94, (0, 1), (1000, 1), (1, 1), (0, 1)⟩,
  ⟨"mgauss", 132, 94, (0, 1), (1, 10000000), (1, 1), (0, 1)⟩,
  ⟨"Mgauss", 132, 94, (0, 1), (100, 1), (1, 1), (0, 1)⟩]

/-- olio/data/properties.json, units 1080 to 1199 -/
def rows9 : List Row := [
  ⟨"mT", 132, 94, (0, 1), (1, 1000), (1, 1), (0, 1)⟩,
  ⟨"ngauss", 132, 94, (0, 1), (1, 10000000000000), (1, 1), (0, 1)⟩,
  ⟨"nT", 132, 94, (0, 1), (1, 1000000000), (1, 1), (0, 1)⟩,
  ⟨"pgauss", 132, 94, (0, 1), (1, 10000000000000000), (1, 1), (0, 1)⟩,
  ⟨"pT", 132, 94, (0, 1), (1, 1000000000000), (1, 1), (0, 1)⟩,
  ⟨"Tgauss", 132, 94, (0, 1), (100000000, 1), (1, 1), (0, 1)⟩,
  ⟨"TT", 132, 94, (0, 1), (1000000000000, 1), (1, 1), (0, 1)⟩,
  ⟨"ugauss", 132, 94, (0, 1), (1, 10000000000), (1, 1), (0, 1)⟩,
  ⟨"uT", 132, 94, (0, 1), (1, 1000000), (1, 1), (0, 1)⟩,
  ⟨"kg/m", 133, 95, (0, 1), (1, 1), (1, 1), (0, 1)⟩,
  ⟨"kg.m/cm2", 133, 95, (0, 1), (10000, 1), (1, 1), (0, 1)⟩,
  ⟨"klbm/in", 133, 95, (0, 1), (45359237, 100000), (127, 5000), (0, 1)⟩,
  ⟨"lbm/ft", 133, 95, (0, 1), (45359237, 100000000), (381, 1250), (0, 1)⟩,
  ⟨"Mg/in", 133, 95, (0, 1), (1000, 1), (127, 5000), (0, 1)⟩,
  ⟨"kg/m2", 134, 96, (0, 1), (1, 1), (1, 1), (0, 1)⟩,
  ⟨"0.01 lbm/ft2", 134, 96, (0, 1), (45359237, 100000000), (145161, 15625), (0, 1)⟩,
  ⟨"lbm/ft2", 134, 96, (0, 1), (45359237, 100000000), (145161, 1562500), (0, 1)⟩,
  ⟨"Mg/m2", 134, 96, (0, 1), (1000, 1), (1, 1), (0, 1)⟩,
  ⟨"ton[US]/ft2", 134, 96, (0, 1), (45359237, 50000), (145161, 1562500), (0, 1)⟩,
  ⟨"kg/(m2.s)", 135, 97, (0, 1), (1, 1), (1, 1), (0, 1)⟩,
  ⟨"g.ft/(cm3.s)", 135, 97, (0, 1), (1524, 5), (1, 1), (0, 1)⟩,
  ⟨"g.m/(cm3.s)", 135, 97, (0, 1), (1000, 1), (1, 1), (0, 1)⟩,
  ⟨"kPa.s/m", 135, 97, (0, 1), (1000, 1), (1, 1), (0, 1)⟩,
  ⟨"lbm/(ft2.h)", 135, 97, (0, 1), (45359237, 100000000), (5225796, 15625), (0, 1)⟩,
  ⟨"lbm/(ft2.s)", 135, 97, (0, 1), (45359237, 100000000), (145161, 1562500), (0, 1)⟩,
  ⟨"MPa.s/m", 135, 97, (0, 1), (1000000, 1), (1, 1), (0, 1)⟩,
  ⟨"N/m3", 136, 98, (0, 1), (1, 1), (1, 1), (0, 1)⟩,
  ⟨"0.001 psi/ft", 136, 98, (0, 1), (8896443230521, 2000000000000), (6145149, 31250000), (0, 1)⟩,
  ⟨"0.01 psi/ft", 136, 98, (0, 1), (8896443230521, 2000000000000), (6145149, 312500000), (0, 1)⟩,
  ⟨"atm/ft", 136, 98, (0, 1), (101325, 1), (381, 1250), (0, 1)⟩,
  ⟨"atm/hm", 136, 98, (0, 1), (4053, 4), (1, 1), (0, 1)⟩,
  ⟨"atm/m", 136, 98, (0, 1), (101325, 1), (1, 1), (0, 1)⟩,
  ⟨"bar/km", 136, 98, (0, 1), (100, 1), (1, 1), (0, 1)⟩,
  ⟨"bar/m", 136, 98, (0, 1), (100000, 1), (1, 1), (0, 1)⟩,
  ⟨"GPa/cm", 136, 98, (0, 1), (100000000000, 1), (1, 1), (0, 1)⟩,
  ⟨"kPa/hm", 136, 98, (0, 1), (10, 1), (1, 1), (0, 1)⟩,
  ⟨"kPa/m", 136, 98, (0, 1), (1000, 1), (1, 1), (0, 1)⟩,
  ⟨"lbf/ft3", 136, 98, (0, 1), (8896443230521, 2000000000000), (55306341, 1953125000), (0, 1)⟩,
  ⟨"lbf/gal[US]", 136, 98, (0, 1), (8896443230521, 2000000000000), (473176473, 125000000000), (0, 1)⟩,
  ⟨"MPa/m", 136, 98, (0, 1), (1000000, 1), (1, 1), (0, 1)⟩,
  ⟨"Pa/m", 136, 98, (0, 1), (1, 1), (1, 1), (0, 1)⟩,
  ⟨"psi/ft", 136, 98, (0, 1), (8896443230521, 2000000000000), (6145149, 31250000000), (0, 1)⟩,
  ⟨"psi/m", 136, 98, (0, 1), (8896443230521, 2000000000000), (16129, 25000000), (0, 1)⟩,
  ⟨"kg/m3", 137, 99, (0, 1), (1, 1), (1, 1), (0, 1)⟩,
  ⟨"0.001 lbm/bbl", 137, 99, (0, 1), (45359237, 100000000), (9936705933, 62500000), (0, 1)⟩,
  ⟨"0.001 lbm/gal[UK]", 137, 99, (0, 1), (45359237, 100000000), (454609, 100000), (0, 1)⟩,
  ⟨"0.001 lbm/gal[US]", 137, 99, (0, 1), (45359237, 100000000), (473176473, 125000000), (0, 1)⟩,
  ⟨"0.01 grain/ft3", 137, 99, (0, 1), (6479891, 100000000000), (55306341, 19531250), (0, 1)⟩,
  ⟨"0.1 lbm/bbl", 137, 99, (0, 1), (45359237, 100000000), (9936705933, 6250000000), (0, 1)⟩,
  ⟨"10 Mg/m3", 137, 99, (0, 1), (10000, 1), (1, 1), (0, 1)⟩,
  ⟨"g/cm3", 137, 99, (0, 1), (1000, 1), (1, 1), (0, 1)⟩,
  ⟨"g/dm3", 137, 99, (0, 1), (1, 1), (1, 1), (0, 1)⟩,
  ⟨"g/gal[UK]", 137, 99, (0, 1), (1, 1000), (454609, 100000000), (0, 1)⟩,
  ⟨"g/gal[US]", 137, 99, (0, 1), (1, 1000), (473176473, 125000000000), (0, 1)⟩,
  ⟨"g/L", 137, 99, (0, 1), (1, 1), (1, 1), (0, 1)⟩,
  ⟨"g/m3", 137, 99, (0, 1), (1, 1000), (1, 1), (0, 1)⟩,
  ⟨"grain/ft3", 137, 99, (0, 1), (6479891, 100000000000), (55306341, 1953125000), (0, 1)⟩,
  ⟨"grain/gal[US]", 137, 99, (0, 1), (6479891, 100000000000), (473176473, 125000000000), (0, 1)⟩,
  ⟨"kg/dm3", 137, 99, (0, 1), (1000, 1), (1, 1), (0, 1)⟩,
  ⟨"kg/L", 137, 99, (0, 1), (1000, 1), (1, 1), (0, 1)⟩,
  ⟨"lbm/bbl", 137, 99, (0, 1), (45359237, 100000000), (9936705933, 62500000000), (0, 1)⟩,
  ⟨"lbm/ft3", 137, 99, (0, 1), (45359237, 100000000), (55306341, 1953125000), (0, 1)⟩,
  ⟨"lbm/gal[UK]", 137, 99, (0, 1), (45359237, 100000000), (454609, 100000000), (0, 1)⟩,
  ⟨"lbm/gal[US]", 137, 99, (0, 1), (45359237, 100000000), (473176473, 125000000000), (0, 1)⟩,
  ⟨"lbm/in3", 137, 99, (0, 1), (45359237, 100000000), (2048383, 125000000000), (0, 1)⟩,
  ⟨"mg/dm3", 137, 99, (0, 1), (1, 1000), (1, 1), (0, 1)⟩,
  ⟨"mg/gal[US]", 137, 99, (0, 1), (1, 1000000), (473176473, 125000000000), (0, 1)⟩,
  ⟨"mg/L", 137, 99, (0, 1), (1, 1000), (1, 1), (0, 1)⟩,
  ⟨"Mg/m3", 137, 99, (0, 1), (1000, 1), (1, 1), (0, 1)⟩,
  ⟨"mg/m3", 137, 99, (0, 1), (1, 1000000), (1, 1), (0, 1)⟩,
  ⟨"t/m3", 137, 99, (0, 1), (1000, 1), (1, 1), (0, 1)⟩,
  ⟨"ug/cm3", 137, 99, (0, 1), (1, 1000), (1, 1), (0, 1)⟩,
  ⟨"kg/m4", 138, 100, (0, 1), (1, 1), (1, 1), (0, 1)⟩,
  ⟨"g/cm4", 138, 100, (0, 1), (100000, 1), (1, 1), (0, 1)⟩,
  ⟨"kg/dm4", 138, 100, (0, 1), (10000, 1), (1, 1), (0, 1)⟩,
  ⟨"lbm/(gal[UK].ft)", 138, 100, (0, 1), (45359237, 100000000), (173206029, 125000000000), (0, 1)⟩,
  ⟨"lbm/(gal[US].ft)", 138, 100, (0, 1), (45359237, 100000000), (180280236213, 156250000000000), (0, 1)⟩,
  ⟨"lbm/ft4", 138, 100, (0, 1), (45359237, 100000000), (21071715921, 2441406250000), (0, 1)⟩,
  ⟨"Pa.s2/m3", 138, 100, (0, 1), (1, 1), (1, 1), (0, 1)⟩,
  ⟨"Pa.s/m3", 139, 101, (0, 1), (1, 1), (1, 1), (0, 1)⟩,
  ⟨"psi.d/bbl", 139, 101, (0, 1), (240203967224067, 625000000), (10257224319574849, 100000000000000000000), (0, 1)⟩,
  ⟨"Pa/m3", 140, 102, (0, 1), (1, 1), (1, 1), (0, 1)⟩,
  ⟨"psi2.d/(cP.ft3)", 140, 102, (0, 1), (2136960958154839, 1250000), (5893180712742331, 500000000000000000000000), (0, 1)⟩,
  ⟨"P", 141, 103, (0, 1), (1, 10), (1, 1), (0, 1)⟩,
  ⟨"kg/(m.s)", 142, 103, (0, 1), (1, 1), (1, 1), (0, 1)⟩,
  ⟨"Pa.s", 141, 103, (0, 1), (1, 1), (1, 1), (0, 1)⟩,
  ⟨"lbm/(ft.h)", 142, 103, (0, 1), (45359237, 100000000), (27432, 25), (0, 1)⟩,
  ⟨"lbm/(ft.s)", 142, 103, (0, 1), (45359237, 100000000), (381, 1250), (0, 1)⟩,
  ⟨"dyne.s/cm2", 141, 103, (0, 1), (1, 10), (1, 1), (0, 1)⟩,
  ⟨"kgf.s/m2", 141, 103, (0, 1), (196133, 20000), (1, 1), (0, 1)⟩,
  ⟨"lbf.s/ft2", 141, 103, (0, 1), (8896443230521, 2000000000000), (145161, 1562500), (0, 1)⟩,
  ⟨"lbf.s/in2", 141, 103, (0, 1), (8896443230521, 2000000000000), (16129, 25000000), (0, 1)⟩,
  ⟨"mPa.s", 141, 103, (0, 1), (1, 1000), (1, 1), (0, 1)⟩,
  ⟨"N.s/m2", 141, 103, (0, 1), (1, 1), (1, 1), (0, 1)⟩,
  ⟨"psi.s", 141, 103, (0, 1), (8896443230521, 2000000000000), (16129, 25000000), (0, 1)⟩,
  ⟨"cP", 141, 103, (0, 1), (1, 1000), (1, 1), (0, 1)⟩,
  ⟨"dP", 141, 103, (0, 1), (1, 100), (1, 1), (0, 1)⟩,
  ⟨"EP", 141, 103, (0, 1), (100000000000000000, 1), (1, 1), (0, 1)⟩,
  ⟨"fP", 141, 103, (0, 1), (1, 10000000000000000), (1, 1), (0, 1)⟩,
  ⟨"GP", 141, 103, (0, 1), (100000000, 1), (1, 1), (0, 1)⟩,
  ⟨"kP", 141, 103, (0, 1), (100, 1), (1, 1), (0, 1)⟩,
  ⟨"mP", 141, 103, (0, 1), (1, 10000), (1, 1), (0, 1)⟩,
  ⟨"MP", 141, 103, (0, 1), (100000, 1), (1, 1), (0, 1)⟩,
  ⟨"nP", 141, 103, (0, 1), (1, 10000000000), (1, 1), (0, 1)⟩,
  ⟨"pP", 141, 103, (0, 1), (1, 10000000000000), (1, 1), (0, 1)⟩,
  ⟨"TP", 141, 103, (0, 1), (100000000000, 1), (1, 1), (0, 1)⟩,
  ⟨"uP", 141, 103, (0, 1), (1, 10000000), (1, 1), (0, 1)⟩,
  ⟨"Pa", 143, 104, (0, 1), (1, 1), (1, 1), (0, 1)⟩,
  ⟨"at", 143, 104, (0, 1), (196133, 2), (1, 1), (0, 1)⟩,
  ⟨"atm", 143, 104, (0, 1), (101325, 1), (1, 1), (0, 1)⟩,
  ⟨"bar", 143, 104, (0, 1), (100000, 1), (1, 1), (0, 1)⟩,
  ⟨"cmH2O[4degC]", 143, 104, (0, 1), (490319, 5000), (1, 1), (0, 1)⟩,
  ⟨"inH2O[39degF]", 143, 104, (0, 1), (124541, 500), (1, 1), (0, 1)⟩,
  ⟨"inH2O[60degF]", 143, 104, (0, 1), (6221, 25), (1, 1), (0, 1)⟩,
  ⟨"inHg[32degF]", 143, 104, (0, 1), (169319, 50), (1, 1), (0, 1)⟩,
  ⟨"inHg[60degF]", 143, 104, (0, 1), (67537, 20), (1, 1), (0, 1)⟩,
  ⟨"mmHg[0degC]", 143, 104, (0, 1), (66661, 500), (1, 1), (0, 1)⟩,
  ⟨"psi", 143, 104, (0, 1), (8896443230521, 2000000000000), (16129, 25000000), (0, 1)⟩,
  ⟨"torr", 143, 104, (0, 1), (101325, 1), (760, 1), (0, 1)⟩,
  ⟨"umHg[0degC]", 143, 104, (0, 1), (66661, 500000), (1, 1), (0, 1)⟩]

/-- olio/data/properties.json, units 1200 to 1319 -/
def rows10 : List Row := [
  ⟨"J/m3", 144, 104, (0, 1), (1, 1), (1, 1), (0, 1)⟩,
  ⟨"Btu[IT]/bbl", 144, 104, (0, 1), (52752792631, 50000000), (9936705933, 62500000000), (0, 1)⟩,
  ⟨"Btu[IT]/ft3", 144, 104, (0, 1), (52752792631, 50000000), (55306341, 1953125000), (0, 1)⟩,
  ⟨"Btu[IT]/gal[UK]", 144, 104, (0, 1), (52752792631, 50000000), (454609, 100000000), (0, 1)⟩,
  ⟨"Btu[IT]/gal[US]", 144, 104, (0, 1), (52752792631, 50000000), (473176473, 125000000000), (0, 1)⟩,
  ⟨"cal[th]/cm3", 144, 104, (0, 1), (4184000, 1), (1, 1), (0, 1)⟩,
  ⟨"cal[th]/mL", 144, 104, (0, 1), (4184000, 1), (1, 1), (0, 1)⟩,
  ⟨"cal[th]/mm3", 144, 104, (0, 1), (4184000000, 1), (1, 1), (0, 1)⟩,
  ⟨"erg/cm3", 144, 104, (0, 1), (1, 10), (1, 1), (0, 1)⟩,
  ⟨"erg/m3", 144, 104, (0, 1), (1, 10000000), (1, 1), (0, 1)⟩,
  ⟨"hp.h/bbl", 144, 104, (0, 1), (2684519537696173, 1000000000), (9936705933, 62500000000), (0, 1)⟩,
  ⟨"J/dm3", 144, 104, (0, 1), (1000, 1), (1, 1), (0, 1)⟩,
  ⟨"kcal[th]/cm3", 144, 104, (0, 1), (4184000000, 1), (1, 1), (0, 1)⟩,
  ⟨"kcal[th]/m3", 144, 104, (0, 1), (4184, 1), (1, 1), (0, 1)⟩,
  ⟨"kJ/dm3", 144, 104, (0, 1), (1000000, 1), (1, 1), (0, 1)⟩,
  ⟨"kJ/m3", 144, 104, (0, 1), (1000, 1), (1, 1), (0, 1)⟩,
  ⟨"kW.h/dm3", 144, 104, (0, 1), (3600000000, 1), (1, 1), (0, 1)⟩,
  ⟨"kW.h/m3", 144, 104, (0, 1), (3600000, 1), (1, 1), (0, 1)⟩,
  ⟨"lbf.ft/bbl", 144, 104, (0, 1), (13558179483314003, 10000000000000000), (9936705933, 62500000000), (0, 1)⟩,
  ⟨"lbf.ft/gal[US]", 144, 104, (0, 1), (13558179483314003, 10000000000000000), (473176473, 125000000000), (0, 1)⟩,
  ⟨"MJ/m3", 144, 104, (0, 1), (1000000, 1), (1, 1), (0, 1)⟩,
  ⟨"MW.h/m3", 144, 104, (0, 1), (3600000000, 1), (1, 1), (0, 1)⟩,
  ⟨"tonf[US].mi/bbl", 144, 104, (0, 1), (3579359383594897, 250000000), (9936705933, 62500000000), (0, 1)⟩,
  ⟨"0.01 lbf/ft2", 143, 104, (0, 1), (8896443230521, 2000000000000), (145161, 15625), (0, 1)⟩,
  ⟨"dyne/cm2", 143, 104, (0, 1), (1, 10), (1, 1), (0, 1)⟩,
  ⟨"kgf/cm2", 143, 104, (0, 1), (196133, 2), (1, 1), (0, 1)⟩,
  ⟨"kgf/m2", 143, 104, (0, 1), (196133, 20000), (1, 1), (0, 1)⟩,
  ⟨"kgf/mm2", 143, 104, (0, 1), (9806650, 1), (1, 1), (0, 1)⟩,
  ⟨"kN/m2", 143, 104, (0, 1), (1000, 1), (1, 1), (0, 1)⟩,
  ⟨"lbf/ft2", 143, 104, (0, 1), (8896443230521, 2000000000000), (145161, 1562500), (0, 1)⟩,
  ⟨"N/m2", 143, 104, (0, 1), (1, 1), (1, 1), (0, 1)⟩,
  ⟨"N/mm2", 143, 104, (0, 1), (1000000, 1), (1, 1), (0, 1)⟩,
  ⟨"tonf[UK]/ft2", 143, 104, (0, 1), (62275102613647, 6250000000), (145161, 1562500), (0, 1)⟩,
  ⟨"tonf[US]/ft2", 143, 104, (0, 1), (8896443230521, 1000000000), (145161, 1562500), (0, 1)⟩,
  ⟨"tonf[US]/in2", 143, 104, (0, 1), (8896443230521, 1000000000), (16129, 25000000), (0, 1)⟩,
  ⟨"cPa", 143, 104, (0, 1), (1, 100), (1, 1), (0, 1)⟩,
  ⟨"dPa", 143, 104, (0, 1), (1, 10), (1, 1), (0, 1)⟩,
  ⟨"EPa", 143, 104, (0, 1), (1000000000000000000, 1), (1, 1), (0, 1)⟩,
  ⟨"fPa", 143, 104, (0, 1), (1, 1000000000000000), (1, 1), (0, 1)⟩,
  ⟨"GPa", 143, 104, (0, 1), (1000000000, 1), (1, 1), (0, 1)⟩,
  ⟨"hbar", 143, 104, (0, 1), (10000000, 1), (1, 1), (0, 1)⟩,
  ⟨"kPa", 143, 104, (0, 1), (1000, 1), (1, 1), (0, 1)⟩,
  ⟨"kpsi", 143, 104, (0, 1), (8896443230521, 2000000000), (16129, 25000000), (0, 1)⟩,
  ⟨"mbar", 143, 104, (0, 1), (100, 1), (1, 1), (0, 1)⟩,
  ⟨"mPa", 143, 104, (0, 1), (1, 1000), (1, 1), (0, 1)⟩,
  ⟨"MPa", 143, 104, (0, 1), (1000000, 1), (1, 1), (0, 1)⟩,
  ⟨"Mpsi", 143, 104, (0, 1), (8896443230521, 2000000), (16129, 25000000), (0, 1)⟩,
  ⟨"nPa", 143, 104, (0, 1), (1, 1000000000), (1, 1), (0, 1)⟩,
  ⟨"pPa", 143, 104, (0, 1), (1, 1000000000000), (1, 1), (0, 1)⟩,
  ⟨"TPa", 143, 104, (0, 1), (1000000000000, 1), (1, 1), (0, 1)⟩,
  ⟨"ubar", 143, 104, (0, 1), (1, 10), (1, 1), (0, 1)⟩,
  ⟨"uPa", 143, 104, (0, 1), (1, 1000000), (1, 1), (0, 1)⟩,
  ⟨"upsi", 143, 104, (0, 1), (8896443230521, 2000000000000000000), (16129, 25000000), (0, 1)⟩,
  ⟨"Pa/s", 145, 105, (0, 1), (1, 1), (1, 1), (0, 1)⟩,
  ⟨"Pa2/(Pa.s)", 146, 105, (0, 1), (1, 1), (1, 1), (0, 1)⟩,
  ⟨"W/m3", 147, 105, (0, 1), (1, 1), (1, 1), (0, 1)⟩,
  ⟨"atm/h", 145, 105, (0, 1), (101325, 1), (3600, 1), (0, 1)⟩,
  ⟨"bar/h", 145, 105, (0, 1), (100000, 1), (3600, 1), (0, 1)⟩,
  ⟨"kPa/h", 145, 105, (0, 1), (1000, 1), (3600, 1), (0, 1)⟩,
  ⟨"kPa/min", 145, 105, (0, 1), (1000, 1), (60, 1), (0, 1)⟩,
  ⟨"MPa/h", 145, 105, (0, 1), (1000000, 1), (3600, 1), (0, 1)⟩,
  ⟨"Pa/h", 145, 105, (0, 1), (1, 1), (3600, 1), (0, 1)⟩,
  ⟨"psi/h", 145, 105, (0, 1), (8896443230521, 2000000000000), (145161, 62500), (0, 1)⟩,
  ⟨"psi/min", 145, 105, (0, 1), (8896443230521, 2000000000000), (48387, 1250000), (0, 1)⟩,
  ⟨"0.001 kPa2/cP", 146, 105, (0, 1), (1000000, 1), (1, 1), (0, 1)⟩,
  ⟨"bar2/cP", 146, 105, (0, 1), (10000000000000, 1), (1, 1), (0, 1)⟩,
  ⟨"kPa2/cP", 146, 105, (0, 1), (1000000000, 1), (1, 1), (0, 1)⟩,
  ⟨"psi2/cP", 146, 105, (0, 1), (4946668884617683, 250000000000000), (260144641, 625000000000000000), (0, 1)⟩,
  ⟨"Btu[IT]/(h.ft3)", 147, 105, (0, 1), (52752792631, 50000000), (995514138, 9765625), (0, 1)⟩,
  ⟨"Btu[IT]/(s.ft3)", 147, 105, (0, 1), (52752792631, 50000000), (55306341, 1953125000), (0, 1)⟩,
  ⟨"cal[th]/(h.cm3)", 147, 105, (0, 1), (523, 125), (9, 2500), (0, 1)⟩,
  ⟨"cal[th]/(s.cm3)", 147, 105, (0, 1), (4184000, 1), (1, 1), (0, 1)⟩,
  ⟨"hp/ft3", 147, 105, (0, 1), (3728499357911351, 5000000000000), (55306341, 1953125000), (0, 1)⟩,
  ⟨"kW/m3", 147, 105, (0, 1), (1000, 1), (1, 1), (0, 1)⟩,
  ⟨"uW/m3", 147, 105, (0, 1), (1, 1000000), (1, 1), (0, 1)⟩,
  ⟨"kg/mol", 148, 106, (0, 1), (1, 1), (1, 1), (0, 1)⟩,
  ⟨"g/mol", 148, 106, (0, 1), (1, 1000), (1, 1), (0, 1)⟩,
  ⟨"lbm/lbmol", 148, 106, (0, 1), (1, 1000), (1, 1), (0, 1)⟩,
  ⟨"W/(m2.sr)", 149, 107, (0, 1), (1, 1), (1, 1), (0, 1)⟩,
  ⟨"kg/s", 150, 108, (0, 1), (1, 1), (1, 1), (0, 1)⟩,
  ⟨"1E6 lbm/a", 150, 108, (0, 1), (45359237, 100), (31557600, 1), (0, 1)⟩,
  ⟨"g/s", 150, 108, (0, 1), (1, 1000), (1, 1), (0, 1)⟩,
  ⟨"kg/d", 150, 108, (0, 1), (1, 1), (86400, 1), (0, 1)⟩,
  ⟨"kg/h", 150, 108, (0, 1), (1, 1), (3600, 1), (0, 1)⟩,
  ⟨"kg/min", 150, 108, (0, 1), (1, 1), (60, 1), (0, 1)⟩,
  ⟨"lbm/d", 150, 108, (0, 1), (45359237, 100000000), (86400, 1), (0, 1)⟩,
  ⟨"lbm/h", 150, 108, (0, 1), (45359237, 100000000), (3600, 1), (0, 1)⟩,
  ⟨"lbm/min", 150, 108, (0, 1), (45359237, 100000000), (60, 1), (0, 1)⟩,
  ⟨"lbm/s", 150, 108, (0, 1), (45359237, 100000000), (1, 1), (0, 1)⟩,
  ⟨"Mg/a", 150, 108, (0, 1), (1000, 1), (31557600, 1), (0, 1)⟩,
  ⟨"Mg/d", 150, 108, (0, 1), (1000, 1), (86400, 1), (0, 1)⟩,
  ⟨"Mg/h", 150, 108, (0, 1), (1000, 1), (3600, 1), (0, 1)⟩,
  ⟨"Mg/min", 150, 108, (0, 1), (1000, 1), (60, 1), (0, 1)⟩,
  ⟨"t/a", 150, 108, (0, 1), (1000, 1), (31557600, 1), (0, 1)⟩,
  ⟨"t/d", 150, 108, (0, 1), (1000, 1), (86400, 1), (0, 1)⟩,
  ⟨"t/h", 150, 108, (0, 1), (1000, 1), (3600, 1), (0, 1)⟩,
  ⟨"t/min", 150, 108, (0, 1), (1000, 1), (60, 1), (0, 1)⟩,
  ⟨"ton[UK]/a", 150, 108, (0, 1), (317514659, 312500), (31557600, 1), (0, 1)⟩,
  ⟨"ton[UK]/d", 150, 108, (0, 1), (317514659, 312500), (86400, 1), (0, 1)⟩,
  ⟨"ton[UK]/h", 150, 108, (0, 1), (317514659, 312500), (3600, 1), (0, 1)⟩,
  ⟨"ton[UK]/min", 150, 108, (0, 1), (317514659, 312500), (60, 1), (0, 1)⟩,
  ⟨"ton[US]/a", 150, 108, (0, 1), (45359237, 50000), (31557600, 1), (0, 1)⟩,
  ⟨"ton[US]/d", 150, 108, (0, 1), (45359237, 50000), (86400, 1), (0, 1)⟩,
  ⟨"ton[US]/h", 150, 108, (0, 1), (45359237, 50000), (3600, 1), (0, 1)⟩,
  ⟨"ton[US]/min", 150, 108, (0, 1), (45359237, 50000), (60, 1), (0, 1)⟩,
  ⟨"J/m2", 151, 109, (0, 1), (1, 1), (1, 1), (0, 1)⟩,
  ⟨"N/m", 152, 109, (0, 1), (1, 1), (1, 1), (0, 1)⟩,
  ⟨"erg/cm2", 151, 109, (0, 1), (1, 1000), (1, 1), (0, 1)⟩,
  ⟨"J/cm2", 151, 109, (0, 1), (10000, 1), (1, 1), (0, 1)⟩,
  ⟨"kgf.m/cm2", 151, 109, (0, 1), (196133, 2), (1, 1), (0, 1)⟩,
  ⟨"lbf.ft/in2", 151, 109, (0, 1), (13558179483314003, 10000000000000000), (16129, 25000000), (0, 1)⟩,
  ⟨"mJ/cm2", 151, 109, (0, 1), (10, 1), (1, 1), (0, 1)⟩,
  ⟨"mJ/m2", 151, 109, (0, 1), (1, 1000), (1, 1), (0, 1)⟩,
  ⟨"0.01 lbf/ft", 152, 109, (0, 1), (8896443230521, 2000000000000), (762, 25), (0, 1)⟩,
  ⟨"1/30 lbf/m", 152, 109, (0, 1), (8896443230521, 2000000000000), (30, 1), (0, 1)⟩,
  ⟨"1/30 N/m", 152, 109, (0, 1), (1, 1), (30, 1), (0, 1)⟩,
  ⟨"dyne/cm", 152, 109, (0, 1), (1, 1000), (1, 1), (0, 1)⟩,
  ⟨"kgf/cm", 152, 109, (0, 1), (196133, 200), (1, 1), (0, 1)⟩,
  ⟨"kN/m", 152, 109, (0, 1), (1000, 1), (1, 1), (0, 1)⟩,
  ⟨"lbf/ft", 152, 109, (0, 1), (8896443230521, 2000000000000), (381, 1250), (0, 1)⟩]

/-- olio/data/properties.json, units 1320 to 1439 -/
def rows11 : List Row := [
  ⟨"lbf/in", 152, 109, (0, 1), (8896443230521, 2000000000000), (127, 5000), (0, 1)⟩,
  ⟨"mN/km", 152, 109, (0, 1), (1, 1000000), (1, 1), (0, 1)⟩,
  ⟨"mN/m", 152, 109, (0, 1), (1, 1000), (1, 1), (0, 1)⟩,
  ⟨"pdl/cm", 152, 109, (0, 1), (17281869297, 125000000000), (1, 100), (0, 1)⟩,
  ⟨"tonf[UK]/ft", 152, 109, (0, 1), (62275102613647, 6250000000), (381, 1250), (0, 1)⟩,
  ⟨"tonf[US]/ft", 152, 109, (0, 1), (8896443230521, 1000000000), (381, 1250), (0, 1)⟩,
  ⟨"W/m2", 153, 110, (0, 1), (1, 1), (1, 1), (0, 1)⟩,
  ⟨"Btu[IT]/(h.ft2)", 153, 110, (0, 1), (52752792631, 50000000), (5225796, 15625), (0, 1)⟩,
  ⟨"Btu[IT]/(s.ft2)", 153, 110, (0, 1), (52752792631, 50000000), (145161, 1562500), (0, 1)⟩,
  ⟨"cal[th]/(h.cm2)", 153, 110, (0, 1), (523, 125), (9, 25), (0, 1)⟩,
  ⟨"hp/in2", 153, 110, (0, 1), (3728499357911351, 5000000000000), (16129, 25000000), (0, 1)⟩,
  ⟨"hp[hyd]/in2", 153, 110, (0, 1), (746043, 1000), (16129, 25000000), (0, 1)⟩,
  ⟨"kW/cm2", 153, 110, (0, 1), (10000000, 1), (1, 1), (0, 1)⟩,
  ⟨"kW/m2", 153, 110, (0, 1), (1000, 1), (1, 1), (0, 1)⟩,
  ⟨"mW/m2", 153, 110, (0, 1), (1, 1000), (1, 1), (0, 1)⟩,
  ⟨"ucal[th]/(s.cm2)", 153, 110, (0, 1), (523, 12500), (1, 1), (0, 1)⟩,
  ⟨"W/cm2", 153, 110, (0, 1), (10000, 1), (1, 1), (0, 1)⟩,
  ⟨"W/mm2", 153, 110, (0, 1), (1000000, 1), (1, 1), (0, 1)⟩,
  ⟨"GPa2", 154, 111, (0, 1), (1000000000000000000, 1), (1, 1), (0, 1)⟩,
  ⟨"kPa2", 154, 111, (0, 1), (1000000, 1), (1, 1), (0, 1)⟩,
  ⟨"kpsi2", 154, 111, (0, 1), (1978667553847073, 100000000), (260144641, 625000000000000), (0, 1)⟩,
  ⟨"Pa2", 154, 111, (0, 1), (1, 1), (1, 1), (0, 1)⟩,
  ⟨"bar2", 154, 111, (0, 1), (10000000000, 1), (1, 1), (0, 1)⟩,
  ⟨"psi2", 154, 111, (0, 1), (4946668884617683, 250000000000000), (260144641, 625000000000000), (0, 1)⟩,
  ⟨"mol", 155, 112, (0, 1), (1, 1), (1, 1), (0, 1)⟩,
  ⟨"lbmol", 155, 112, (0, 1), (45359237, 100000), (1, 1), (0, 1)⟩,
  ⟨"kmol", 155, 112, (0, 1), (1000, 1), (1, 1), (0, 1)⟩,
  ⟨"mmol", 155, 112, (0, 1), (1, 1000), (1, 1), (0, 1)⟩,
  ⟨"umol", 155, 112, (0, 1), (1, 1000000), (1, 1), (0, 1)⟩,
  ⟨"mol/m2", 156, 113, (0, 1), (1, 1), (1, 1), (0, 1)⟩,
  ⟨"mol/(s.m2)", 157, 114, (0, 1), (1, 1), (1, 1), (0, 1)⟩,
  ⟨"lbmol/(h.ft2)", 157, 114, (0, 1), (45359237, 100000), (5225796, 15625), (0, 1)⟩,
  ⟨"lbmol/(s.ft2)", 157, 114, (0, 1), (45359237, 100000), (145161, 1562500), (0, 1)⟩,
  ⟨"mol/m3", 158, 115, (0, 1), (1, 1), (1, 1), (0, 1)⟩,
  ⟨"kmol/m3", 158, 115, (0, 1), (1000, 1), (1, 1), (0, 1)⟩,
  ⟨"lbmol/ft3", 158, 115, (0, 1), (45359237, 100000), (55306341, 1953125000), (0, 1)⟩,
  ⟨"lbmol/gal[UK]", 158, 115, (0, 1), (45359237, 100000), (454609, 100000000), (0, 1)⟩,
  ⟨"lbmol/gal[US]", 158, 115, (0, 1), (45359237, 100000), (473176473, 125000000000), (0, 1)⟩,
  ⟨"mol/s", 159, 116, (0, 1), (1, 1), (1, 1), (0, 1)⟩,
  ⟨"kmol/h", 159, 116, (0, 1), (1000, 1), (3600, 1), (0, 1)⟩,
  ⟨"kmol/s", 159, 116, (0, 1), (1000, 1), (1, 1), (0, 1)⟩,
  ⟨"lbmol/h", 159, 116, (0, 1), (45359237, 100000), (3600, 1), (0, 1)⟩,
  ⟨"lbmol/s", 159, 116, (0, 1), (45359237, 100000), (1, 1), (0, 1)⟩,
  ⟨"sr", 160, 117, (0, 1), (1, 1), (1, 1), (0, 1)⟩,
  ⟨"s", 161, 118, (0, 1), (1, 1), (1, 1), (0, 1)⟩,
  ⟨"a", 161, 118, (0, 1), (31557600, 1), (1, 1), (0, 1)⟩,
  ⟨"a[t]", 161, 118, (0, 1), (6311385089, 200), (1, 1), (0, 1)⟩,
  ⟨"d", 161, 118, (0, 1), (86400, 1), (1, 1), (0, 1)⟩,
  ⟨"h", 161, 118, (0, 1), (3600, 1), (1, 1), (0, 1)⟩,
  ⟨"min", 161, 118, (0, 1), (60, 1), (1, 1), (0, 1)⟩,
  ⟨"wk", 161, 118, (0, 1), (604800, 1), (1, 1), (0, 1)⟩,
  ⟨"1/2 ms", 161, 118, (0, 1), (1, 2000), (1, 1), (0, 1)⟩,
  ⟨"100 ka[t]", 161, 118, (0, 1), (3155692544500, 1), (1, 1), (0, 1)⟩,
  ⟨"ca", 161, 118, (0, 1), (315576, 1), (1, 1), (0, 1)⟩,
  ⟨"cs", 161, 118, (0, 1), (1, 100), (1, 1), (0, 1)⟩,
  ⟨"ds", 161, 118, (0, 1), (1, 10), (1, 1), (0, 1)⟩,
  ⟨"Ea[t]", 161, 118, (0, 1), (31556925445000000000000000, 1), (1, 1), (0, 1)⟩,
  ⟨"fa", 161, 118, (0, 1), (39447, 1250000000000), (1, 1), (0, 1)⟩,
  ⟨"Ga[t]", 161, 118, (0, 1), (31556925445000000, 1), (1, 1), (0, 1)⟩,
  ⟨"hs", 161, 118, (0, 1), (100, 1), (1, 1), (0, 1)⟩,
  ⟨"ka[t]", 161, 118, (0, 1), (31556925445, 1), (1, 1), (0, 1)⟩,
  ⟨"Ma[t]", 161, 118, (0, 1), (31556925445000, 1), (1, 1), (0, 1)⟩,
  ⟨"ms", 161, 118, (0, 1), (1, 1000), (1, 1), (0, 1)⟩,
  ⟨"na", 161, 118, (0, 1), (39447, 1250000), (1, 1), (0, 1)⟩,
  ⟨"ns", 161, 118, (0, 1), (1, 1000000000), (1, 1), (0, 1)⟩,
  ⟨"ps", 161, 118, (0, 1), (1, 1000000000000), (1, 1), (0, 1)⟩,
  ⟨"Ta[t]", 161, 118, (0, 1), (31556925445000000000, 1), (1, 1), (0, 1)⟩,
  ⟨"us", 161, 118, (0, 1), (1, 1000000), (1, 1), (0, 1)⟩,
  ⟨"s/m", 162, 119, (0, 1), (1, 1), (1, 1), (0, 1)⟩,
  ⟨"0.001 h/ft", 162, 119, (0, 1), (3600, 1), (1524, 5), (0, 1)⟩,
  ⟨"h/km", 162, 119, (0, 1), (18, 5), (1, 1), (0, 1)⟩,
  ⟨"min/ft", 162, 119, (0, 1), (60, 1), (381, 1250), (0, 1)⟩,
  ⟨"min/m", 162, 119, (0, 1), (60, 1), (1, 1), (0, 1)⟩,
  ⟨"ms/cm", 162, 119, (0, 1), (1, 10), (1, 1), (0, 1)⟩,
  ⟨"ms/ft", 162, 119, (0, 1), (1, 1000), (381, 1250), (0, 1)⟩,
  ⟨"ms/in", 162, 119, (0, 1), (1, 1000), (127, 5000), (0, 1)⟩,
  ⟨"ms/m", 162, 119, (0, 1), (1, 1000), (1, 1), (0, 1)⟩,
  ⟨"ns/ft", 162, 119, (0, 1), (1, 1000000000), (381, 1250), (0, 1)⟩,
  ⟨"ns/m", 162, 119, (0, 1), (1, 1000000000), (1, 1), (0, 1)⟩,
  ⟨"s/cm", 162, 119, (0, 1), (100, 1), (1, 1), (0, 1)⟩,
  ⟨"s/ft", 162, 119, (0, 1), (1, 1), (381, 1250), (0, 1)⟩,
  ⟨"s/in", 162, 119, (0, 1), (1, 1), (127, 5000), (0, 1)⟩,
  ⟨"us/ft", 162, 119, (0, 1), (1, 1000000), (381, 1250), (0, 1)⟩,
  ⟨"us/in", 162, 119, (0, 1), (1, 1000000), (127, 5000), (0, 1)⟩,
  ⟨"us/m", 162, 119, (0, 1), (1, 1000000), (1, 1), (0, 1)⟩,
  ⟨"s/m3", 163, 120, (0, 1), (1, 1), (1, 1), (0, 1)⟩,
  ⟨"0.001 d/ft3", 163, 120, (0, 1), (86400, 1), (55306341, 1953125), (0, 1)⟩,
  ⟨"d/bbl", 163, 120, (0, 1), (86400, 1), (9936705933, 62500000000), (0, 1)⟩,
  ⟨"d/ft3", 163, 120, (0, 1), (86400, 1), (55306341, 1953125000), (0, 1)⟩,
  ⟨"d/m3", 163, 120, (0, 1), (86400, 1), (1, 1), (0, 1)⟩,
  ⟨"h/ft3", 163, 120, (0, 1), (3600, 1), (55306341, 1953125000), (0, 1)⟩,
  ⟨"h/m3", 163, 120, (0, 1), (3600, 1), (1, 1), (0, 1)⟩,
  ⟨"s/ft3", 163, 120, (0, 1), (1, 1), (55306341, 1953125000), (0, 1)⟩,
  ⟨"s/L", 163, 120, (0, 1), (1000, 1), (1, 1), (0, 1)⟩,
  ⟨"s/qt[UK]", 163, 120, (0, 1), (1, 1), (454609, 400000000), (0, 1)⟩,
  ⟨"s/qt[US]", 163, 120, (0, 1), (1, 1), (473176473, 500000000000), (0, 1)⟩,
  ⟨"s/kg", 164, 121, (0, 1), (1, 1), (1, 1), (0, 1)⟩,
  ⟨"kg/J", 165, 122, (0, 1), (1, 1), (1, 1), (0, 1)⟩,
  ⟨"kg/(kW.h)", 165, 122, (0, 1), (1, 1), (3600000, 1), (0, 1)⟩,
  ⟨"kg/MJ", 165, 122, (0, 1), (1, 1000000), (1, 1), (0, 1)⟩,
  ⟨"lbm/(hp.h)", 165, 122, (0, 1), (45359237, 100000000), (2684519537696173, 1000000000), (0, 1)⟩,
  ⟨"mg/J", 165, 122, (0, 1), (1, 1000000), (1, 1), (0, 1)⟩,
  ⟨"1/lbf", 166, 123, (0, 1), (1, 1), (8896443230521, 2000000000000), (0, 1)⟩,
  ⟨"1/N", 166, 123, (0, 1), (1, 1), (1, 1), (0, 1)⟩,
  ⟨"B", 167, 124, (0, 1), (1, 1), (1, 1), (0, 1)⟩,
  ⟨"dAPI", 168, 124, (0, 1), (1, 1), (1, 1), (0, 1)⟩,
  ⟨"gAPI", 169, 124, (0, 1), (1, 1), (1, 1), (0, 1)⟩,
  ⟨"nAPI", 170, 124, (0, 1), (1, 1), (1, 1), (0, 1)⟩,
  ⟨"O", 171, 124, (0, 1), (1, 1), (1, 1), (0, 1)⟩,
  ⟨"dB.mW", 172, 124, (0, 1), (1, 10000), (1, 1), (0, 1)⟩,
  ⟨"dB.MW", 172, 124, (0, 1), (100000, 1), (1, 1), (0, 1)⟩,
  ⟨"dB.W", 172, 124, (0, 1), (1, 10), (1, 1), (0, 1)⟩,
  ⟨"dB/ft", 173, 124, (0, 1), (1, 10), (381, 1250), (0, 1)⟩,
  ⟨"dB/km", 173, 124, (0, 1), (1, 10000), (1, 1), (0, 1)⟩,
  ⟨"dB/m", 173, 124, (0, 1), (1, 10), (1, 1), (0, 1)⟩,
  ⟨"dB/O", 174, 124, (0, 1), (1, 10), (1, 1), (0, 1)⟩,
  ⟨"B.W", 172, 124, (0, 1), (1, 1), (1, 1), (0, 1)⟩,
  ⟨"B/m", 173, 124, (0, 1), (1, 1), (1, 1), (0, 1)⟩,
  ⟨"B/O", 174, 124, (0, 1), (1, 1), (1, 1), (0, 1)⟩,
  ⟨"V/B", 175, 124, (0, 1), (1, 1), (1, 1), (0, 1)⟩]

/-- olio/data/properties.json, units 1440 to 1441 -/
def rows12 : List Row := [
  ⟨"V/dB", 175, 124, (0, 1), (10, 1), (1, 1), (0, 1)⟩,
  ⟨"dB", 167, 124, (0, 1), (1, 10), (1, 1), (0, 1)⟩]

/-- olio/data/properties.json `units` -/
def unitRows : List Row :=
  rows0 ++ rows1 ++ rows2 ++ rows3 ++ rows4 ++ rows5 ++ rows6 ++ rows7 ++ rows8 ++ rows9 ++ rows10 ++ rows11 ++ rows12

/-- the base units -/
def baseNames : List String := [
  "Euc",
  "bit",
  "kg/kg",
  "m2/m2",
  "m3/m3",
  "mol/mol",
  "(m3/s)/(m3/s)",
  "m/m",
  "N/N",
  "s/s",
  "W/W",
  "1/deltaK",
  "m/(m.deltaK)",
  "m3/(m3.deltaK)",
  "m2/m3",
  "1/m",
  "1/m2",
  "m/m3",
  "1/m3",
  "1/kg",
  "Bq/kg",
  "Bq",
  "Bd",
  "Hz",
  "1/s",
  "bit/s",
  "m3/(s.m3)",
  "rad",
  "rad/m",
  "rad/m3",
  "rad/s",
  "rad/s2",
  "deltaK",
  "deltaK/m",
  "deltaK/s",
  "deltaK/Pa",
  "deltaK/W",
  "deltaK.m2/W",
  "A",
  "A/m",
  "A/m2",
  "1/H",
  "S",
  "S/m",
  "F",
  "F/m",
  "A.m2",
  "C.m",
  "C",
  "C/m2",
  "C/m3",
  "C/kg",
  "1/V",
  "cd",
  "cd/m2",
  "lm",
  "lx",
  "lm.s",
  "lx.s",
  "lm/W",
  "K",
  "m",
  "m3/m2",
  "m/deltaK",
  "m/kg",
  "m/s",
  "m3/(s.m2)",
  "m/s2",
  "TD[API]",
  "m2",
  "m3/m",
  "J/(kg.deltaK)",
  "m2/kg",
  "m2/mol",
  "m2/s",
  "m3/(s.m)",
  "mol.m2/(mol.s)",
  "Pa.s.m3/kg",
  "W.m2.deltaK/(J.deltaK)",
  "Gy",
  "Sv",
  "J/kg",
  "Sv/s",
  "kg.m2",
  "J/(mol.deltaK)",
  "J/deltaK",
  "W/deltaK",
  "H",
  "ohm",
  "Wb",
  "V",
  "J/mol",
  "W/sr",
  "J",
  "N.m",
  "W",
  "J/s",
  "m/Pa",
  "m3",
  "TD[API].m",
  "m3/rad",
  "m3/kg",
  "m3/mol",
  "m3/s",
  "m3/s2",
  "ohm.m",
  "Wb.m",
  "N.m2",
  "m2/(Pa.s)",
  "TD[API]/(Pa.s)",
  "m4",
  "m4/s",
  "m3/(Pa.s)",
  "m3/Pa",
  "kg.m",
  "J.m/(s.m2.deltaK)",
  "W/(m.deltaK)",
  "H/m",
  "ohm/m",
  "Wb/m",
  "V/m",
  "kg.m/s",
  "N",
  "J.m/m2",
  "J/m",
  "N.m/m",
  "1/Pa",
  "m3/J",
  "kg",
  "W/(m3.deltaK)",
  "W/(m2.deltaK)",
  "T/m",
  "T",
  "kg/m",
  "kg/m2",
  "kg/(m2.s)",
  "N/m3",
  "kg/m3",
  "kg/m4",
  "Pa.s/m3",
  "Pa/m3",
  "Pa.s",
  "kg/(m.s)",
  "Pa",
  "J/m3",
  "Pa/s",
  "Pa2/(Pa.s)",
  "W/m3",
  "kg/mol",
  "W/(m2.sr)",
  "kg/s",
  "J/m2",
  "N/m",
  "W/m2",
  "Pa2",
  "mol",
  "mol/m2",
  "mol/(s.m2)",
  "mol/m3",
  "mol/s",
  "sr",
  "s",
  "s/m",
  "s/m3",
  "s/kg",
  "kg/J",
  "1/N",
  "B",
  "dAPI",
  "gAPI",
  "nAPI",
  "O",
  "B.W",
  "B/m",
  "B/O",
  "V/B"]

/-- the dimensions -/
def dimNames : List String := [
  "1",
  "1/D",
  "1/L",
  "1/L2",
  "1/L3",
  "1/M",
  "1/MT",
  "1/T",
  "A",
  "A/L",
  "A/L3",
  "A/T",
  "A/T2",
  "D",
  "D/L",
  "D/T",
  "DLT2/M",
  "DT3/L2M",
  "DT3/M",
  "I",
  "I/L",
  "I/L2",
  "I2T2/L2M",
  "I2T3/L2M",
  "I2T3/L3M",
  "I2T4/L2M",
  "I2T4/L3M",
  "IL2",
  "ILT",
  "IT",
  "IT/L2",
  "IT/L3",
  "IT/M",
  "IT3/L2M",
  "J",
  "J/L2",
  "JS",
  "JS/L2",
  "JST",
  "JST/L2",
  "JST3/L2M",
  "K",
  "L",
  "L/D",
  "L/M",
  "L/T",
  "L/T2",
  "L2",
  "L2/DT2",
  "L2/M",
  "L2/N",
  "L2/T",
  "L2/T2",
  "L2/T3",
  "L2M",
  "L2M/DNT2",
  "L2M/DT2",
  "L2M/DT3",
  "L2M/I2T2",
  "L2M/I2T3",
  "L2M/IT2",
  "L2M/IT3",
  "L2M/NT2",
  "L2M/ST3",
  "L2M/T2",
  "L2M/T3",
  "L2T2/M",
  "L3",
  "L3/A",
  "L3/M",
  "L3/N",
  "L3/T",
  "L3/T2",
  "L3M/I2T3",
  "L3M/IT2",
  "L3M/T2",
  "L3T/M",
  "L4",
  "L4/T",
  "L4T/M",
  "L4T2/M",
  "LM",
  "LM/DT3",
  "LM/I2T2",
  "LM/I2T3",
  "LM/IT2",
  "LM/IT3",
  "LM/T",
  "LM/T2",
  "LT2/M",
  "M",
  "M/DLT3",
  "M/DT3",
  "M/ILT2",
  "M/IT2",
  "M/L",
  "M/L2",
  "M/L2T",
  "M/L2T2",
  "M/L3",
  "M/L4",
  "M/L4T",
  "M/L4T2",
  "M/LT",
  "M/LT2",
  "M/LT3",
  "M/N",
  "M/ST3",
  "M/T",
  "M/T2",
  "M/T3",
  "M2/L2T4",
  "N",
  "N/L2",
  "N/L2T",
  "N/L3",
  "N/T",
  "S",
  "T",
  "T/L",
  "T/L3",
  "T/M",
  "T2/L2",
  "T2/LM",
  "none"]

/-- number of the dimension of each base unit -/
def baseDims : List Nat := [
  0, 0, 0, 0, 0, 0, 0, 0, 0, 0, 0, 1, 1, 1, 2, 2, 3, 3, 4, 5, 6, 7, 7, 7, 7,
  7, 7, 8, 9, 10, 11, 12, 13, 14, 15, 16, 17, 18, 19, 20, 21, 22, 23, 24, 25, 26, 27, 28, 29, 30,
  31, 32, 33, 34, 35, 36, 37, 38, 39, 40, 41, 42, 42, 43, 44, 45, 45, 46, 47, 47, 47, 48, 49, 50, 51,
  51, 51, 51, 51, 52, 52, 52, 53, 54, 55, 56, 57, 58, 59, 60, 61, 62, 63, 64, 64, 65, 65, 66, 67, 67,
  68, 69, 70, 71, 72, 73, 74, 75, 76, 76, 77, 78, 79, 80, 81, 82, 82, 83, 84, 85, 86, 87, 88, 88, 88,
  88, 89, 89, 90, 91, 92, 93, 94, 95, 96, 97, 98, 99, 100, 101, 102, 103, 103, 104, 104, 105, 105, 105, 106, 107,
  108, 109, 109, 110, 111, 112, 113, 114, 115, 116, 117, 118, 119, 120, 121, 122, 123, 124, 124, 124, 124, 124, 124, 124, 124,
  124]

/-- weights_and_measures.py:25-81 `UOM_ALIAS_MAP` (aliases case folded) -/
def unitAliases : List (String × String) := [
  ("gm", "g"),
  ("gram", "g"),
  ("gramme", "g"),
  ("grammes", "g"),
  ("grams", "g"),
  ("lb", "lbm"),
  ("lbs", "lbm"),
  ("m", "m"),
  ("meter", "m"),
  ("meters", "m"),
  ("metre", "m"),
  ("metres", "m"),
  ("feet", "ft"),
  ("foot", "ft"),
  ("ft", "ft"),
  ("ftus", "ft[US]"),
  ("centimeter", "cm"),
  ("centimeters", "cm"),
  ("centimetre", "cm"),
  ("centimetres", "cm"),
  ("millisecond", "ms"),
  ("milliseconds", "ms"),
  ("millisecs", "ms"),
  ("ms", "ms"),
  ("msec", "ms"),
  ("s", "s"),
  ("sec", "s"),
  ("second", "s"),
  ("seconds", "s"),
  ("secs", "s"),
  ("min", "min"),
  ("mins", "min"),
  ("minute", "min"),
  ("minutes", "min"),
  ("h", "h"),
  ("hour", "h"),
  ("hours", "h"),
  ("hr", "h"),
  ("day", "d"),
  ("days", "d"),
  ("week", "wk"),
  ("weeks", "wk"),
  ("wk", "wk"),
  ("a", "a"),
  ("year", "a"),
  ("years", "a"),
  ("yr", "a"),
  ("%", "%"),
  ("p.u.", "%"),
  ("percent", "%"),
  ("pu", "%"),
  ("m3/m3", "m3/m3"),
  ("v/v", "m3/m3"),
  ("g/cc", "g/cm3"),
  ("g/cm3", "g/cm3"),
  ("bbl", "bbl"),
  ("rb", "bbl"),
  ("stb", "bbl"),
  ("1000 bbl", "1000 bbl"),
  ("mbbl", "1000 bbl"),
  ("mrb", "1000 bbl"),
  ("mstb", "1000 bbl"),
  ("1e6 bbl", "1E6 bbl"),
  ("mmbbl", "1E6 bbl"),
  ("mmstb", "1E6 bbl"),
  ("1e6 ft3", "1E6 ft3"),
  ("mmscf", "1E6 ft3"),
  ("1000 ft3", "1000 ft3"),
  ("mscf", "1000 ft3"),
  ("m3", "m3"),
  ("rm3", "m3"),
  ("sm3", "m3"),
  ("stm3", "m3"),
  ("krm3", "1000 m3"),
  ("kstm3", "1000 m3"),
  ("mrm3", "1000 m3"),
  ("msm3", "1000 m3"),
  ("cf", "ft3"),
  ("cu.ft.", "ft3"),
  ("ft3", "ft3"),
  ("rcf", "ft3"),
  ("scf", "ft3"),
  ("cc", "cm3"),
  ("scc", "cm3"),
  ("stcc", "cm3"),
  ("krcc", "L"),
  ("kscc", "L"),
  ("kstcc", "L"),
  ("liter", "L"),
  ("liters", "L"),
  ("litre", "L"),
  ("litres", "L"),
  ("psi", "psi"),
  ("psia", "psi"),
  ("c", "degC"),
  ("degrees c", "degC"),
  ("degreesc", "degC"),
  ("degrees f", "degF"),
  ("degreesf", "degF"),
  ("f", "degF"),
  ("btu", "Btu[IT]"),
  ("kj", "kJ"),
  ("gapi", "gAPI"),
  ("mho", "S"),
  ("mmho", "mS"),
  ("mole", "mol"),
  ("moles", "mol"),
  ("count", "Euc"),
  ("fraction", "Euc"),
  ("none", "Euc")]

/-- weights_and_measures.py:84 `CASE_INSENSITIVE_UOMS` -/
def unitCaseless : List String := ["bar", "bbl", "bbl/d", "ft", "ft3", "ft3/ft3", "m", "m3", "m3/d", "m3/m3", "psi"]

/-- olio/data/properties.json, members of the quantity `length` -/
def lengthUoms : List String := [
  "0.1 ft", "0.1 ft[US]", "0.1 in", "0.1 yd", "1/16 in", "1/2 ft", "1/32 in", "1/64 in", "10 ft", "10 in",
  "10 km", "100 ft", "100 km", "1000 ft", "30 ft", "30 m", "Em", "Gm", "Mm", "Tm",
  "angstrom", "chain", "chain[BnA]", "chain[BnB]", "chain[Cla]", "chain[Ind37]", "chain[SeT]", "chain[Se]", "chain[US]", "cm",
  "dam", "dm", "fathom", "fm", "ft", "ft[BnA]", "ft[BnB]", "ft[Br36]", "ft[Br65]", "ft[Cla]",
  "ft[GC]", "ft[Ind37]", "ft[Ind62]", "ft[Ind75]", "ft[Ind]", "ft[SeT]", "ft[Se]", "ft[US]", "fur[US]", "hm",
  "in", "in[US]", "km", "link", "link[BnA]", "link[BnB]", "link[Cla]", "link[SeT]", "link[Se]", "link[US]",
  "m", "m[Ger]", "mi", "mi[US]", "mi[nautUK]", "mi[naut]", "mil", "mm", "nm", "pm",
  "rod[US]", "um", "yd", "yd[BnA]", "yd[BnB]", "yd[Cla]", "yd[Ind37]", "yd[Ind62]", "yd[Ind75]", "yd[Ind]",
  "yd[SeT]", "yd[Se]", "yd[US]"]

/-- olio/data/properties.json, members of the quantity `time` -/
def timeUoms : List String := [
  "1/2 ms", "100 ka[t]", "Ea[t]", "Ga[t]", "Ma[t]", "Ta[t]", "a", "a[t]", "ca", "cs",
  "d", "ds", "fa", "h", "hs", "ka[t]", "min", "ms", "na", "ns",
  "ps", "s", "us", "wk"]

/-- olio/data/properties.json, members of the quantity `pressure` -/
def pressureUoms : List String := [
  "0.01 lbf/ft2", "EPa", "GPa", "MPa", "Mpsi", "N/m2", "N/mm2", "Pa", "TPa", "at",
  "atm", "bar", "cPa", "cmH2O[4degC]", "dPa", "dyne/cm2", "fPa", "hbar", "inH2O[39degF]", "inH2O[60degF]",
  "inHg[32degF]", "inHg[60degF]", "kN/m2", "kPa", "kgf/cm2", "kgf/m2", "kgf/mm2", "kpsi", "lbf/ft2", "mPa",
  "mbar", "mmHg[0degC]", "nPa", "pPa", "psi", "tonf[UK]/ft2", "tonf[US]/ft2", "tonf[US]/in2", "torr", "uPa",
  "ubar", "umHg[0degC]", "upsi"]

/-- olio/data/properties.json, members of the quantity `volume` -/
def volumeUoms : List String := [
  "1000 bbl", "1000 ft3", "1000 gal[UK]", "1000 gal[US]", "1000 m3", "1E-6 gal[US]", "1E12 ft3", "1E6 bbl", "1E6 ft3", "1E6 m3",
  "1E9 bbl", "1E9 ft3", "L", "acre.ft", "bbl", "cm3", "dm3", "floz[UK]", "floz[US]", "ft3",
  "gal[UK]", "gal[US]", "hL", "ha.m", "in3", "km3", "m3", "mL", "mi3", "mm3",
  "pt[UK]", "pt[US]", "qt[UK]", "qt[US]", "um2.m", "yd3"]

/-- olio/data/properties.json, members of the quantity `dynamic viscosity` -/
def viscosityUoms : List String := [
  "EP", "GP", "MP", "N.s/m2", "P", "Pa.s", "TP", "cP", "dP", "dyne.s/cm2",
  "fP", "kP", "kgf.s/m2", "lbf.s/ft2", "lbf.s/in2", "mP", "mPa.s", "nP", "pP", "psi.s",
  "uP"]

/-- olio/data/properties.json, members of the quantity `plane angle` -/
def angleUoms : List String := [
  "0.001 seca", "Mrad", "ccgr", "cgr", "dega", "gon", "krad", "mila", "mina", "mrad",
  "rad", "rev", "seca", "urad"]

/-- the data as loaded -/
def theData : Data := ⟨unitRows, unitAliases, unitCaseless⟩

end Verif.Units
