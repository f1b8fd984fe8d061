import Verif.Model.Shipped

/-!
# The units and constants shipped with the library

Generated by `tools/gen_shipped.py` from the text of `quantities/unitquantity.py`, `quantities/units/*.py`
and `quantities/constants/*.py`, in the order in which `import quantities` executes the definitions.
Each row cites its file and line; the comment repeats the definition.  `.unit i` is the unit of row `i`.
-/

namespace PQ.Shipped

/-- `quantities/unitquantity.py`, rows 0-0 -/
def t_unitquantity : List Row := [
  -- 0: unitquantity.py:441
  ⟨.dimensionless, "dimensionless", none, none, none, []⟩]

/-- `quantities/units/time.py`, rows 1-33 -/
def t_time : List Row := [
  -- 1: time.py:7
  ⟨.time, "second", none, (some "s"), none, ["sec", "seconds"]⟩,
  -- 2: time.py:12
  ⟨.time, "kilosecond", (some (.mul (.unit 1) (.num 1000 1))), (some "ks"), none, ["kiloseconds"]⟩,
  -- 3: time.py:18
  ⟨.time, "megasecond", (some (.mul (.unit 2) (.num 1000 1))), (some "Ms"), none, ["megaseconds"]⟩,
  -- 4: time.py:24
  ⟨.time, "millisecond", (some (.div (.unit 1) (.num 1000 1))), (some "ms"), none, ["milliseconds"]⟩,
  -- 5: time.py:30
  ⟨.time, "microsecond", (some (.div (.unit 4) (.num 1000 1))), (some "us"), (some "µs"), ["microseconds"]⟩,
  -- 6: time.py:37
  ⟨.time, "nanosecond", (some (.div (.unit 5) (.num 1000 1))), (some "ns"), none, ["nanoseconds"]⟩,
  -- 7: time.py:43
  ⟨.time, "picosecond", (some (.div (.unit 6) (.num 1000 1))), (some "ps"), none, ["picoseconds"]⟩,
  -- 8: time.py:49
  ⟨.time, "femtosecond", (some (.div (.unit 7) (.num 1000 1))), (some "fs"), none, ["femtoseconds"]⟩,
  -- 9: time.py:55
  ⟨.time, "attosecond", (some (.div (.unit 8) (.num 1000 1))), (some "as"), none, ["attoseconds"]⟩,
  -- 10: time.py:62
  ⟨.time, "minute", (some (.mul (.num 60 1) (.unit 1))), (some "min"), none, ["minutes"]⟩,
  -- 11: time.py:68
  ⟨.time, "hour", (some (.mul (.num 60 1) (.unit 10))), (some "h"), none, ["hr", "hours"]⟩,
  -- 12: time.py:74
  ⟨.time, "day", (some (.mul (.num 24 1) (.unit 11))), (some "d"), none, ["days"]⟩,
  -- 13: time.py:80
  ⟨.time, "week", (some (.mul (.num 7 1) (.unit 12))), none, none, ["weeks"]⟩,
  -- 14: time.py:85
  ⟨.time, "fortnight", (some (.mul (.num 2 1) (.unit 13))), none, none, ["fortnights"]⟩,
  -- 15: time.py:90
  ⟨.time, "year", (some (.mul (.num 315569259747 10000) (.unit 1))), (some "yr"), none, ["a", "years", "tropical_year", "tropical_years"]⟩,
  -- 16: time.py:97
  ⟨.time, "month", (some (.div (.unit 15) (.num 12 1))), none, none, ["months"]⟩,
  -- 17: time.py:102
  ⟨.time, "shake", (some (.mul (.num 1 100000000) (.unit 1))), none, none, ["shakes"]⟩,
  -- 18: time.py:108
  ⟨.time, "sidereal_day", (some (.div (.unit 12) (.num 25068447733769881 25000000000000000))), none, none, ["sidereal_days"]⟩,
  -- 19: time.py:118
  ⟨.time, "sidereal_hour", (some (.div (.unit 18) (.num 24 1))), none, none, ["sidereal_hours"]⟩,
  -- 20: time.py:123
  ⟨.time, "sidereal_minute", (some (.div (.unit 19) (.num 60 1))), none, none, ["sidereal_minutes"]⟩,
  -- 21: time.py:128
  ⟨.time, "sidereal_second", (some (.div (.unit 20) (.num 60 1))), none, none, ["sidereal_seconds"]⟩,
  -- 22: time.py:133
  ⟨.time, "sidereal_year", (some (.mul (.num 18312818021 50000000) (.unit 18))), none, none, ["sidereal_years"]⟩,
  -- 23: time.py:139
  ⟨.time, "sidereal_month", (some (.mul (.num 27321661 1000000) (.unit 12))), none, none, ["sidereal_months"]⟩,
  -- 24: time.py:146
  ⟨.time, "tropical_month", (some (.mul (.num 13660791 500000) (.unit 12))), none, none, ["tropical_months"]⟩,
  -- 25: time.py:151
  ⟨.time, "synodic_month", (some (.mul (.num 29530589 1000000) (.unit 12))), none, none, ["synodic_months", "lunar_month", "lunar_months"]⟩,
  -- 26: time.py:161
  ⟨.time, "common_year", (some (.mul (.num 365 1) (.unit 12))), none, none, ["common_years"]⟩,
  -- 27: time.py:166
  ⟨.time, "leap_year", (some (.mul (.num 366 1) (.unit 12))), none, none, ["leap_years"]⟩,
  -- 28: time.py:171
  ⟨.time, "Julian_year", (some (.mul (.num 1461 4) (.unit 12))), none, none, ["Julian_years"]⟩,
  -- 29: time.py:176
  ⟨.time, "Gregorian_year", (some (.mul (.num 146097 400) (.unit 12))), none, none, ["Gregorian_years"]⟩,
  -- 30: time.py:182
  ⟨.time, "millenium", (some (.mul (.num 1000 1) (.unit 15))), none, none, ["millenia"]⟩,
  -- 31: time.py:187
  ⟨.time, "eon", (some (.mul (.num 1000000000 1) (.unit 15))), none, none, ["eons"]⟩,
  -- 32: time.py:193
  ⟨.unitQuantity, "work_year", (some (.mul (.num 2056 1) (.unit 11))), none, none, ["work_years"]⟩,
  -- 33: time.py:198
  ⟨.unitQuantity, "work_month", (some (.div (.unit 32) (.num 12 1))), none, none, ["work_months"]⟩]

/-- `quantities/units/length.py`, rows 34-64 -/
def t_length : List Row := [
  -- 34: length.py:6
  ⟨.length, "meter", none, (some "m"), none, ["meters", "metre", "metres"]⟩,
  -- 35: length.py:11
  ⟨.length, "kilometer", (some (.mul (.num 1000 1) (.unit 34))), (some "km"), none, ["kilometers", "kilometre", "kilometres"]⟩,
  -- 36: length.py:17
  ⟨.length, "decimeter", (some (.div (.unit 34) (.num 10 1))), (some "dm"), none, ["decimeters", "decimetre", "decimetres"]⟩,
  -- 37: length.py:23
  ⟨.length, "centimeter", (some (.div (.unit 34) (.num 100 1))), (some "cm"), none, ["centimeters", "centimetre", "centimetres"]⟩,
  -- 38: length.py:29
  ⟨.length, "millimeter", (some (.div (.unit 34) (.num 1000 1))), (some "mm"), none, ["millimeters", "millimetre", "millimetres"]⟩,
  -- 39: length.py:35
  ⟨.length, "micrometer", (some (.div (.unit 38) (.num 1000 1))), (some "um"), (some "µm"), ["micron", "microns", "micrometers", "micrometre", "micrometres"]⟩,
  -- 40: length.py:44
  ⟨.length, "nanometer", (some (.div (.unit 39) (.num 1000 1))), (some "nm"), none, ["nanometers", "nanometre", "nanometres"]⟩,
  -- 41: length.py:50
  ⟨.length, "picometer", (some (.div (.unit 40) (.num 1000 1))), (some "pm"), none, ["picometers", "picometre", "picometres"]⟩,
  -- 42: length.py:56
  ⟨.length, "angstrom", (some (.div (.unit 40) (.num 10 1))), none, (some "Å"), ["angstroms"]⟩,
  -- 43: length.py:62
  ⟨.length, "femtometer", (some (.div (.unit 41) (.num 1000 1))), (some "fm"), none, ["femtometers", "femtometre", "femtometres", "fermi", "fermis"]⟩,
  -- 44: length.py:69
  ⟨.length, "inch", (some (.mul (.num 127 50) (.unit 37))), (some "in"), none, ["inches", "international_inch", "international_inches"]⟩,
  -- 45: length.py:75
  ⟨.length, "foot", (some (.mul (.num 12 1) (.unit 44))), (some "ft"), none, ["feet", "international_footinternational_feet"]⟩,
  -- 46: length.py:81
  ⟨.length, "mile", (some (.mul (.num 5280 1) (.unit 45))), (some "mi"), none, ["miles", "international_mile", "international_miles"]⟩,
  -- 47: length.py:87
  ⟨.length, "yard", (some (.mul (.num 3 1) (.unit 45))), (some "yd"), none, ["yards", "international_yard", "international_yards"]⟩,
  -- 48: length.py:93
  ⟨.length, "mil", (some (.div (.unit 44) (.num 1000 1))), none, none, ["mils", "thou", "thous"]⟩,
  -- 49: length.py:98
  ⟨.length, "parsec", (some (.mul (.num 30856802500000000 1) (.unit 34))), (some "pc"), none, ["parsecs"]⟩,
  -- 50: length.py:105
  ⟨.length, "light_year", (some (.mul (.num 47303652362904 5) (.unit 35))), (some "ly"), none, ["light_years"]⟩,
  -- 51: length.py:111
  ⟨.length, "astronomical_unit", (some (.mul (.num 149597870691 1) (.unit 34))), (some "au"), none, ["astronomical_units"]⟩,
  -- 52: length.py:127
  ⟨.length, "nautical_mile", (some (.mul (.num 1852 1) (.unit 34))), (some "nmi"), none, ["nmile", "nmiles", "nautical_miles"]⟩,
  -- 53: length.py:133
  ⟨.length, "printers_point", (some (.div (.mul (.num 127 1) (.unit 38)) (.num 360 1))), (some "point"), none, ["printers_points", "points"]⟩,
  -- 54: length.py:140
  ⟨.length, "pica", (some (.mul (.num 12 1) (.unit 53))), none, none, ["picas", "printers_pica", "printers_picas"]⟩,
  -- 55: length.py:146
  ⟨.length, "US_survey_foot", (some (.div (.mul (.num 1200 1) (.unit 34)) (.num 3937 1))), none, none, ["US_survey_feet"]⟩,
  -- 56: length.py:151
  ⟨.length, "US_survey_yard", (some (.mul (.num 3 1) (.unit 55))), none, none, ["US_survey_yards"]⟩,
  -- 57: length.py:156
  ⟨.length, "US_survey_mile", (some (.mul (.num 5280 1) (.unit 55))), none, none, ["US_survey_miles", "US_statute_mile", "US_statute_miles"]⟩,
  -- 58: length.py:161
  ⟨.length, "rod", (some (.mul (.num 33 2) (.unit 55))), none, none, ["rods", "pole", "poles", "perch", "perches"]⟩,
  -- 59: length.py:166
  ⟨.length, "furlong", (some (.mul (.num 660 1) (.unit 55))), none, none, ["furlongs"]⟩,
  -- 60: length.py:171
  ⟨.length, "fathom", (some (.mul (.num 6 1) (.unit 55))), none, none, ["fathoms"]⟩,
  -- 61: length.py:176
  ⟨.length, "chain", (some (.mul (.num 66 1) (.unit 55))), none, none, ["chains"]⟩,
  -- 62: length.py:181
  ⟨.length, "barleycorn", (some (.div (.unit 44) (.num 3 1))), none, none, ["barleycorns"]⟩,
  -- 63: length.py:186
  ⟨.length, "arpentlin", (some (.mul (.num 38367 200) (.unit 45))), none, none, []⟩,
  -- 64: length.py:191
  ⟨.unitQuantity, "kayser", (some (.div (.num 1 1) (.unit 37))), none, none, ["kaysers", "wavenumber", "wavenumbers"]⟩]

/-- `quantities/units/acceleration.py`, rows 65-65 -/
def t_acceleration : List Row := [
  -- 65: acceleration.py:9
  ⟨.unitQuantity, "standard_gravity", (some (.div (.mul (.num 196133 20000) (.unit 34)) (.pow (.unit 1) 2 1))), (some "g_0"), (some "g₀"), []⟩]

/-- `quantities/units/angle.py`, rows 66-78 -/
def t_angle : List Row := [
  -- 66: angle.py:8
  ⟨.unitQuantity, "radian", (some (.mul (.num 1 1) (.unit 0))), (some "rad"), none, ["radians"]⟩,
  -- 67: angle.py:14
  ⟨.unitQuantity, "milliradian", (some (.div (.unit 66) (.num 1000 1))), (some "mrad"), none, ["milliradians"]⟩,
  -- 68: angle.py:20
  ⟨.unitQuantity, "microradian", (some (.div (.unit 67) (.num 1000 1))), (some "urad"), (some "µrad"), ["microradians"]⟩,
  -- 69: angle.py:28
  ⟨.unitQuantity, "turn", (some (.mul (.mul (.num 2 1) .pi) (.unit 66))), none, none, ["turns", "revolutions", "circles", "cycles"]⟩,
  -- 70: angle.py:33
  ⟨.unitQuantity, "arcdegree", (some (.mul (.div .pi (.num 180 1)) (.unit 66))), (some "deg"), (some "°"), ["degree", "degrees", "arc_degree", "arc_degrees", "angular_degree", "angular_degrees", "arcdegrees", "arcdeg"]⟩,
  -- 71: angle.py:43
  ⟨.unitQuantity, "arcminute", (some (.div (.unit 70) (.num 60 1))), (some "arcmin"), (some "′"), ["arcmins", "arcminutes", "arc_minute", "arc_minutes", "angular_minute", "angular_minutes"]⟩,
  -- 72: angle.py:53
  ⟨.unitQuantity, "arcsecond", (some (.div (.unit 71) (.num 60 1))), (some "arcsec"), (some "″"), ["arcsecs", "arcseconds", "arc_second", "arc_seconds", "angular_second", "angular_seconds"]⟩,
  -- 73: angle.py:63
  ⟨.unitQuantity, "grad", (some (.mul (.num 9 10) (.unit 70))), none, none, ["grads", "grade", "grades", "gron", "grons", "gradian", "gradians"]⟩,
  -- 74: angle.py:69
  ⟨.unitQuantity, "degrees_north", (some (.unit 70)), (some "degN"), (some "°N"), ["degrees_N"]⟩,
  -- 75: angle.py:76
  ⟨.unitQuantity, "degrees_east", (some (.unit 70)), (some "degE"), (some "°E"), ["degrees_E"]⟩,
  -- 76: angle.py:83
  ⟨.unitQuantity, "degrees_west", (some (.unit 70)), (some "degW"), (some "°W"), ["degrees_W"]⟩,
  -- 77: angle.py:90
  ⟨.unitQuantity, "degrees_true", (some (.unit 70)), (some "degT"), (some "°T"), ["degrees_T"]⟩,
  -- 78: angle.py:98
  ⟨.unitQuantity, "steradian", (some (.pow (.unit 66) 2 1)), (some "sr"), none, ["steradians"]⟩]

/-- `quantities/units/area.py`, rows 79-86 -/
def t_area : List Row := [
  -- 79: area.py:7
  ⟨.unitQuantity, "are", (some (.mul (.num 100 1) (.pow (.unit 34) 2 1))), none, none, ["ares"]⟩,
  -- 80: area.py:12
  ⟨.unitQuantity, "barn", (some (.mul (.num 1 10000000000000000000000000000) (.pow (.unit 34) 2 1))), (some "b"), none, ["barnes"]⟩,
  -- 81: area.py:18
  ⟨.unitQuantity, "circular_mil", (some (.mul (.num 202683 400000000000000) (.pow (.unit 34) 2 1))), (some "cmil"), none, ["circular_mils"]⟩,
  -- 82: area.py:25
  ⟨.unitQuantity, "darcy", (some (.mul (.num 9869233 10000000000000000000) (.pow (.unit 34) 2 1))), (some "D"), none, []⟩,
  -- 83: area.py:30
  ⟨.unitQuantity, "millidarcy", (some (.div (.unit 82) (.num 1000 1))), (some "mD"), none, []⟩,
  -- 84: area.py:35
  ⟨.unitQuantity, "hectare", (some (.mul (.num 10000 1) (.pow (.unit 34) 2 1))), (some "ha"), none, ["hectares"]⟩,
  -- 85: area.py:41
  ⟨.unitQuantity, "acre", (some (.mul (.num 316160658 78125) (.pow (.unit 34) 2 1))), none, none, ["acres", "international_acre", "international_acres"]⟩,
  -- 86: area.py:47
  ⟨.unitQuantity, "US_survey_acre", (some (.mul (.num 160 1) (.pow (.unit 58) 2 1))), none, none, ["US_survey_acres"]⟩]

/-- `quantities/units/compound.py`, rows 87-87 -/
def t_compound : List Row := [
  -- 87: compound.py:6
  ⟨.compound, "pc/cm**3", (some (.div (.unit 49) (.pow (.unit 37) 3 1))), none, none, []⟩]

/-- `quantities/units/substance.py`, rows 88-90 -/
def t_substance : List Row := [
  -- 88: substance.py:6
  ⟨.substance, "mole", none, (some "mol"), none, []⟩,
  -- 89: substance.py:10
  ⟨.substance, "millimole", (some (.div (.unit 88) (.num 1000 1))), (some "mmol"), none, []⟩,
  -- 90: substance.py:15
  ⟨.substance, "micromole", (some (.div (.unit 89) (.num 1000 1))), (some "umol"), (some "µmol"), []⟩]

/-- `quantities/units/volume.py`, rows 91-123 -/
def t_volume : List Row := [
  -- 91: volume.py:8
  ⟨.unitQuantity, "liter", (some (.mul (.num 1 1000) (.pow (.unit 34) 3 1))), (some "L"), none, ["l", "liters", "litre", "litres"]⟩,
  -- 92: volume.py:14
  ⟨.unitQuantity, "milliliter", (some (.div (.unit 91) (.num 1000 1))), (some "mL"), none, ["ml", "milliliters", "millilitre", "millilitres"]⟩,
  -- 93: volume.py:20
  ⟨.unitQuantity, "kiloliter", (some (.mul (.unit 91) (.num 1000 1))), (some "kL"), none, ["kl", "kiloliters", "kilolitre", "kilolitres"]⟩,
  -- 94: volume.py:26
  ⟨.unitQuantity, "megaliter", (some (.mul (.unit 93) (.num 1000 1))), (some "ML"), none, ["Ml", "megaliters", "megalitre", "megalitres"]⟩,
  -- 95: volume.py:32
  ⟨.unitQuantity, "gigaliter", (some (.mul (.unit 94) (.num 1000 1))), (some "GL"), none, ["Gl", "gigaliters", "gigalitre", "gigalitres"]⟩,
  -- 96: volume.py:38
  ⟨.unitQuantity, "cubic_centimeter", (some (.pow (.unit 37) 3 1)), (some "cc"), none, ["cubic_centimeters"]⟩,
  -- 97: volume.py:45
  ⟨.unitQuantity, "stere", (some (.pow (.unit 34) 3 1)), none, none, ["steres"]⟩,
  -- 98: volume.py:50
  ⟨.unitQuantity, "gross_register_ton", (some (.mul (.num 100 1) (.pow (.unit 45) 3 1))), (some "GRT"), none, ["gross_register_tons", "register_ton", "register_tons"]⟩,
  -- 99: volume.py:57
  ⟨.unitQuantity, "acre_foot", (some (.mul (.unit 85) (.unit 45))), none, none, ["acre_feet"]⟩,
  -- 100: volume.py:62
  ⟨.unitQuantity, "board_foot", (some (.mul (.pow (.unit 45) 2 1) (.unit 44))), (some "FBM"), none, ["board_feet"]⟩,
  -- 101: volume.py:67
  ⟨.unitQuantity, "US_bushel", (some (.mul (.num 107521 50) (.pow (.unit 44) 3 1))), (some "bu"), none, []⟩,
  -- 102: volume.py:72
  ⟨.unitQuantity, "US_dry_gallon", (some (.div (.unit 101) (.num 8 1))), none, none, []⟩,
  -- 103: volume.py:76
  ⟨.unitQuantity, "US_liquid_gallon", (some (.mul (.num 231 1) (.pow (.unit 44) 3 1))), none, none, ["gallon", "gallons", "liquid_gallon", "liquid_gallons", "US_liquid_gallons"]⟩,
  -- 104: volume.py:84
  ⟨.unitQuantity, "US_dry_quart", (some (.div (.unit 102) (.num 4 1))), none, none, ["dry_quart", "dry_quarts", "US_dry_quarts"]⟩,
  -- 105: volume.py:89
  ⟨.unitQuantity, "US_dry_pint", (some (.div (.unit 104) (.num 2 1))), none, none, ["dry_pint", "dry_pints", "US_dry_pints"]⟩,
  -- 106: volume.py:94
  ⟨.unitQuantity, "US_liquid_quart", (some (.div (.unit 103) (.num 4 1))), (some "quart"), none, ["quarts", "liquid_quart", "liquid_quarts", "US_liquid_quarts"]⟩,
  -- 107: volume.py:100
  ⟨.unitQuantity, "US_liquid_pint", (some (.div (.unit 106) (.num 2 1))), (some "pt"), none, ["pint", "pints", "liquid_pint", "liquid_pints", "US_liquid_pints"]⟩,
  -- 108: volume.py:108
  ⟨.unitQuantity, "cup", (some (.div (.unit 107) (.num 2 1))), none, none, ["cups", "US_liquid_cup", "US_liquid_cups"]⟩,
  -- 109: volume.py:113
  ⟨.unitQuantity, "US_liquid_gill", (some (.div (.unit 108) (.num 2 1))), (some "gill"), none, ["gills", "US_liquid_gills"]⟩,
  -- 110: volume.py:119
  ⟨.unitQuantity, "US_fluid_ounce", (some (.div (.unit 109) (.num 4 1))), (some "fl_oz"), none, ["fluid_ounce", "fluid_ounces", "US_fluid_ounces", "US_liquid_ounce", "US_liquid_ounces"]⟩,
  -- 111: volume.py:129
  ⟨.unitQuantity, "Imperial_bushel", (some (.mul (.num 454609 12500) (.unit 91))), none, none, []⟩,
  -- 112: volume.py:134
  ⟨.unitQuantity, "UK_liquid_gallon", (some (.mul (.num 454609 100000) (.unit 91))), none, none, ["UK_liquid_gallons", "Canadian_liquid_gallon", "Canadian_liquid_gallons"]⟩,
  -- 113: volume.py:143
  ⟨.unitQuantity, "UK_liquid_quart", (some (.div (.unit 112) (.num 4 1))), none, none, ["UK_liquid_quarts"]⟩,
  -- 114: volume.py:148
  ⟨.unitQuantity, "UK_liquid_pint", (some (.div (.unit 113) (.num 2 1))), none, none, ["UK_liquid_pints"]⟩,
  -- 115: volume.py:153
  ⟨.unitQuantity, "UK_liquid_cup", (some (.div (.unit 114) (.num 2 1))), none, none, ["UK_liquid_cups"]⟩,
  -- 116: volume.py:158
  ⟨.unitQuantity, "UK_liquid_gill", (some (.div (.unit 115) (.num 2 1))), none, none, ["UK_liquid_gills"]⟩,
  -- 117: volume.py:163
  ⟨.unitQuantity, "UK_fluid_ounce", (some (.div (.unit 116) (.num 5 1))), none, none, ["UK_fluid_ounces", "UK_liquid_ounce", "UK_liquid_ounces"]⟩,
  -- 118: volume.py:169
  ⟨.unitQuantity, "barrel", (some (.mul (.num 42 1) (.unit 103))), (some "bbl"), none, []⟩,
  -- 119: volume.py:174
  ⟨.unitQuantity, "tablespoon", (some (.div (.unit 110) (.num 2 1))), (some "tbsp"), none, ["Tbsp", "Tblsp", "Tbl", "tblsp", "tbs", "tablespoons"]⟩,
  -- 120: volume.py:180
  ⟨.unitQuantity, "teaspoon", (some (.div (.unit 119) (.num 3 1))), (some "tsp"), none, ["teaspoons"]⟩,
  -- 121: volume.py:187
  ⟨.unitQuantity, "peck", (some (.div (.unit 101) (.num 4 1))), (some "pk"), none, ["pecks"]⟩,
  -- 122: volume.py:194
  ⟨.unitQuantity, "fluid_dram", (some (.div (.unit 110) (.num 8 1))), (some "fldr"), none, ["fluid_drams", "fluidram", "fluidrams"]⟩,
  -- 123: volume.py:201
  ⟨.unitQuantity, "firkin", (some (.div (.unit 118) (.num 4 1))), none, none, []⟩]

/-- `quantities/units/concentration.py`, rows 124-126 -/
def t_concentration : List Row := [
  -- 124: concentration.py:8
  ⟨.unitQuantity, "molar", (some (.div (.unit 88) (.unit 91))), (some "M"), none, ["Molar"]⟩,
  -- 125: concentration.py:15
  ⟨.unitQuantity, "millimolar", (some (.div (.unit 124) (.num 1000 1))), (some "mM"), none, []⟩,
  -- 126: concentration.py:21
  ⟨.unitQuantity, "micromolar", (some (.div (.unit 125) (.num 1000 1))), (some "uM"), (some "µM"), []⟩]

/-- `quantities/units/dimensionless.py`, rows 127-129 -/
def t_dimensionless : List Row := [
  -- 127: dimensionless.py:6
  ⟨.unitQuantity, "percent", (some (.mul (.num 1 100) (.unit 0))), (some "%"), none, []⟩,
  -- 128: dimensionless.py:12
  ⟨.unitQuantity, "count", (some (.mul (.num 1 1) (.unit 0))), (some "ct"), none, ["cts", "counts"]⟩,
  -- 129: dimensionless.py:19
  ⟨.unitQuantity, "least_significant_bit", (some (.mul (.num 1 1) (.unit 0))), (some "lsb"), none, ["lsbs"]⟩]

/-- `quantities/units/mass.py`, rows 130-154 -/
def t_mass : List Row := [
  -- 130: mass.py:7
  ⟨.mass, "kilogram", none, (some "kg"), none, ["kilograms"]⟩,
  -- 131: mass.py:12
  ⟨.mass, "gram", (some (.div (.unit 130) (.num 1000 1))), (some "g"), none, ["grams"]⟩,
  -- 132: mass.py:18
  ⟨.mass, "milligram", (some (.div (.unit 131) (.num 1000 1))), (some "mg"), none, ["milligrams"]⟩,
  -- 133: mass.py:24
  ⟨.mass, "ounce", (some (.mul (.num 45359237 1600000) (.unit 131))), (some "oz"), none, ["ounces", "avoirdupois_ounce", "avoirdupois_ounces"]⟩,
  -- 134: mass.py:31
  ⟨.mass, "pound", (some (.mul (.num 45359237 100000000) (.unit 130))), (some "lb"), none, ["pounds", "avoirdupois_pound", "avoirdupois_pounds"]⟩,
  -- 135: mass.py:38
  ⟨.mass, "stone", (some (.mul (.num 14 1) (.unit 134))), (some "st"), none, []⟩,
  -- 136: mass.py:45
  ⟨.mass, "carat", (some (.mul (.num 200 1) (.unit 132))), none, none, ["carats"]⟩,
  -- 137: mass.py:50
  ⟨.mass, "grain", (some (.mul (.num 6479891 100000) (.unit 132))), (some "gr"), none, ["grains"]⟩,
  -- 138: mass.py:56
  ⟨.mass, "long_hundredweight", (some (.mul (.num 112 1) (.unit 134))), none, none, ["long_hundredweights"]⟩,
  -- 139: mass.py:61
  ⟨.mass, "short_hundredweight", (some (.mul (.num 100 1) (.unit 134))), none, none, ["short_hundredweights"]⟩,
  -- 140: mass.py:66
  ⟨.mass, "tonne", (some (.mul (.num 1000 1) (.unit 130))), (some "t"), none, ["tonnes"]⟩,
  -- 141: mass.py:72
  ⟨.mass, "pennyweight", (some (.mul (.num 24 1) (.unit 137))), (some "dwt"), none, ["pennyweights"]⟩,
  -- 142: mass.py:78
  ⟨.mass, "slug", (some (.mul (.num 145939 10000) (.unit 130))), none, none, ["slugs"]⟩,
  -- 143: mass.py:83
  ⟨.mass, "troy_ounce", (some (.mul (.num 480 1) (.unit 137))), (some "toz"), (some "℥"), ["apounce", "apounces", "apothecary_ounce", "apothecary_ounces", "troy_ounces"]⟩,
  -- 144: mass.py:93
  ⟨.mass, "troy_pound", (some (.mul (.num 12 1) (.unit 143))), (some "tlb"), (some "℔"), ["troy_pounds", "appound", "appounds", "apothecary_pound", "apothecary_pounds"]⟩,
  -- 145: mass.py:103
  ⟨.mass, "atomic_mass_unit", (some (.mul (.num 830269391 500000000000000000000000000000000000) (.unit 130))), (some "u"), none, ["amu", "Da", "dalton"]⟩,
  -- 146: mass.py:110
  ⟨.mass, "scruple", (some (.mul (.num 20 1) (.unit 137))), none, (some "℈"), ["scruples"]⟩,
  -- 147: mass.py:116
  ⟨.mass, "dram", (some (.div (.unit 133) (.num 16 1))), (some "dr"), none, ["drams"]⟩,
  -- 148: mass.py:123
  ⟨.mass, "drachm", (some (.mul (.num 60 1) (.unit 137))), none, (some "  "), ["drachms", "apdram", "apdrams"]⟩,
  -- 149: mass.py:131
  ⟨.mass, "bag", (some (.mul (.num 94 1) (.unit 134))), none, none, ["bags"]⟩,
  -- 150: mass.py:137
  ⟨.mass, "short_ton", (some (.mul (.num 2000 1) (.unit 134))), none, none, ["short_tons"]⟩,
  -- 151: mass.py:142
  ⟨.mass, "long_ton", (some (.mul (.num 2240 1) (.unit 134))), none, none, ["long_tons"]⟩,
  -- 152: mass.py:151
  ⟨.unitQuantity, "denier", (some (.div (.unit 131) (.mul (.num 9000 1) (.unit 34)))), none, none, ["deniers"]⟩,
  -- 153: mass.py:156
  ⟨.unitQuantity, "tex", (some (.div (.unit 131) (.mul (.num 1000 1) (.unit 34)))), none, none, ["texs"]⟩,
  -- 154: mass.py:161
  ⟨.unitQuantity, "dtex", (some (.div (.unit 131) (.mul (.num 10000 1) (.unit 34)))), none, none, ["dtexs"]⟩]

/-- `quantities/units/force.py`, rows 155-165 -/
def t_force : List Row := [
  -- 155: force.py:11
  ⟨.unitQuantity, "newton", (some (.div (.mul (.unit 130) (.unit 34)) (.pow (.unit 1) 2 1))), (some "N"), none, ["newtons"]⟩,
  -- 156: force.py:17
  ⟨.unitQuantity, "kilonewton", (some (.mul (.num 1000 1) (.unit 155))), (some "kN"), none, ["kilonewtons"]⟩,
  -- 157: force.py:23
  ⟨.unitQuantity, "dyne", (some (.div (.mul (.unit 131) (.unit 37)) (.pow (.unit 1) 2 1))), (some "dyn"), none, ["dynes"]⟩,
  -- 158: force.py:29
  ⟨.unitQuantity, "pond", (some (.mul (.unit 65) (.unit 130))), (some "p"), none, ["ponds"]⟩,
  -- 159: force.py:35
  ⟨.unitQuantity, "kilogram_force", (some (.mul (.unit 130) (.unit 65))), (some "kgf"), none, ["force_kilogram"]⟩,
  -- 160: force.py:41
  ⟨.unitQuantity, "ounce_force", (some (.mul (.unit 133) (.unit 65))), (some "ozf"), none, ["force_ounce"]⟩,
  -- 161: force.py:47
  ⟨.unitQuantity, "pound_force", (some (.mul (.unit 134) (.unit 65))), (some "lbf"), none, ["force_pound"]⟩,
  -- 162: force.py:53
  ⟨.unitQuantity, "poundal", (some (.div (.mul (.unit 134) (.unit 45)) (.pow (.unit 1) 2 1))), (some "pdl"), none, ["poundals"]⟩,
  -- 163: force.py:59
  ⟨.unitQuantity, "gram_force", (some (.mul (.unit 131) (.unit 65))), (some "gf"), none, ["force_gram"]⟩,
  -- 164: force.py:65
  ⟨.unitQuantity, "ton_force", (some (.mul (.num 2000 1) (.unit 161))), none, none, ["force_ton"]⟩,
  -- 165: force.py:69
  ⟨.unitQuantity, "kip", (some (.mul (.num 1000 1) (.unit 161))), none, none, []⟩]

/-- `quantities/units/energy.py`, rows 166-183 -/
def t_energy : List Row := [
  -- 166: energy.py:9
  ⟨.unitQuantity, "joule", (some (.mul (.unit 155) (.unit 34))), (some "J"), none, ["joules"]⟩,
  -- 167: energy.py:15
  ⟨.unitQuantity, "erg", (some (.mul (.unit 157) (.unit 37))), none, none, []⟩,
  -- 168: energy.py:19
  ⟨.unitQuantity, "British_thermal_unit", (some (.mul (.unit 166) (.num 52752792631 50000000))), (some "BTU"), none, []⟩,
  -- 169: energy.py:24
  ⟨.unitQuantity, "electron_volt", (some (.mul (.unit 166) (.num 160217653 1000000000000000000000000000))), (some "eV"), none, ["electron_volts"]⟩,
  -- 170: energy.py:30
  ⟨.unitQuantity, "meV", (some (.div (.unit 169) (.num 1000 1))), none, none, []⟩,
  -- 171: energy.py:34
  ⟨.unitQuantity, "keV", (some (.mul (.num 1000 1) (.unit 169))), none, none, []⟩,
  -- 172: energy.py:38
  ⟨.unitQuantity, "MeV", (some (.mul (.num 1000 1) (.unit 171))), none, none, []⟩,
  -- 173: energy.py:42
  ⟨.unitQuantity, "GeV", (some (.mul (.num 1000 1) (.unit 172))), none, none, []⟩,
  -- 174: energy.py:46
  ⟨.unitQuantity, "EC_therm", (some (.mul (.num 100000 1) (.unit 168))), (some "thm"), none, []⟩,
  -- 175: energy.py:51
  ⟨.unitQuantity, "thermochemical_calorie", (some (.mul (.num 523 125) (.unit 166))), (some "cal"), none, ["calorie", "calories", "thermochemical_calories"]⟩,
  -- 176: energy.py:57
  ⟨.unitQuantity, "international_steam_table_calorie", (some (.mul (.unit 166) (.num 10467 2500))), (some "cal_IT"), none, ["international_steam_table_calories"]⟩,
  -- 177: energy.py:63
  ⟨.unitQuantity, "ton_TNT", (some (.mul (.num 4184000000 1) (.unit 166))), (some "tTNT"), none, []⟩,
  -- 178: energy.py:68
  ⟨.unitQuantity, "US_therm", (some (.mul (.num 105480400 1) (.unit 166))), none, none, ["US_therms"]⟩,
  -- 179: energy.py:73
  ⟨.unitQuantity, "watt_hour", (some (.mul (.div (.unit 166) (.unit 1)) (.unit 11))), (some "Wh"), none, ["watthour", "watthours", "watt_hours"]⟩,
  -- 180: energy.py:79
  ⟨.unitQuantity, "kilowatt_hour", (some (.mul (.num 1000 1) (.unit 179))), (some "kWh"), none, ["kilowatthour", "kilowatthours", "kilowatt_hours"]⟩,
  -- 181: energy.py:85
  ⟨.unitQuantity, "megawatt_hour", (some (.mul (.num 1000 1) (.unit 180))), (some "MWh"), none, ["megawatthour", "megawatthours", "megawatt_hours"]⟩,
  -- 182: energy.py:91
  ⟨.unitQuantity, "gigawatt_hour", (some (.mul (.num 1000 1) (.unit 181))), (some "GWh"), none, ["gigawatthour", "gigawatthours", "gigawatt_hours"]⟩,
  -- 183: energy.py:97
  ⟨.unitQuantity, "hartree", (some (.mul (.num 217987197 50000000000000000000000000) (.unit 166))), (some "E_h"), none, ["hartrees", "hartree_energy", "Hartree_energy"]⟩]

/-- `quantities/units/velocity.py`, rows 184-185 -/
def t_velocity : List Row := [
  -- 184: velocity.py:9
  ⟨.unitQuantity, "speed_of_light", (some (.div (.mul (.num 299792458 1) (.unit 34)) (.unit 1))), (some "c"), none, []⟩,
  -- 185: velocity.py:15
  ⟨.unitQuantity, "nautical_miles_per_hour", (some (.div (.unit 52) (.unit 11))), (some "kt"), none, ["knot", "knots", "knot_international", "international_knot"]⟩]

/-- `quantities/units/electromagnetism.py`, rows 186-242 -/
def t_electromagnetism : List Row := [
  -- 186: electromagnetism.py:13
  ⟨.current, "ampere", none, (some "A"), none, ["amp", "amps", "amperes"]⟩,
  -- 187: electromagnetism.py:18
  ⟨.current, "milliampere", (some (.div (.unit 186) (.num 1000 1))), (some "mA"), none, ["milliamp", "milliamps", "milliamperes"]⟩,
  -- 188: electromagnetism.py:24
  ⟨.current, "microampere", (some (.div (.unit 187) (.num 1000 1))), (some "uA"), (some "µA"), ["microamp", "microamps", "microamperes"]⟩,
  -- 189: electromagnetism.py:30
  ⟨.current, "nanoampere", (some (.div (.unit 188) (.num 1000 1))), (some "nA"), none, ["nanoamp", "nanoamps", "nanoamperes"]⟩,
  -- 190: electromagnetism.py:36
  ⟨.current, "picoampere", (some (.div (.unit 189) (.num 1000 1))), (some "pA"), none, ["picoamp", "picoamps", "picoamperes"]⟩,
  -- 191: electromagnetism.py:42
  ⟨.current, "abampere", (some (.mul (.num 10 1) (.unit 186))), (some "aA"), none, ["abamperes", "biot", "biots"]⟩,
  -- 192: electromagnetism.py:49
  ⟨.unitQuantity, "statcoulomb", (some (.mul (.mul (.num 1 1) (.pow (.unit 167) 1 2)) (.pow (.unit 37) 1 2))), (some "esu"), none, ["statcoulombs", "statC", "franklin", "franklins", "Fr"]⟩,
  -- 193: electromagnetism.py:55
  ⟨.current, "statampere", (some (.div (.unit 192) (.unit 1))), (some "(esu/s)"), none, ["statamperes"]⟩,
  -- 194: electromagnetism.py:62
  ⟨.unitQuantity, "ampere_turn", (some (.mul (.num 1 1) (.unit 186))), none, none, []⟩,
  -- 195: electromagnetism.py:66
  ⟨.unitQuantity, "gilbert", (some (.mul (.div (.num 10 1) (.mul (.num 4 1) .pi)) (.unit 194))), (some "Gi"), none, []⟩,
  -- 196: electromagnetism.py:72
  ⟨.unitQuantity, "coulomb", (some (.mul (.unit 186) (.unit 1))), (some "C"), none, []⟩,
  -- 197: electromagnetism.py:77
  ⟨.unitQuantity, "millicoulomb", (some (.mul (.num 1 1000) (.unit 196))), (some "mC"), none, []⟩,
  -- 198: electromagnetism.py:82
  ⟨.unitQuantity, "microcoulomb", (some (.mul (.num 1 1000000) (.unit 196))), (some "uC"), (some "μC"), []⟩,
  -- 199: electromagnetism.py:88
  ⟨.unitQuantity, "volt", (some (.div (.unit 166) (.unit 196))), (some "V"), none, ["volts"]⟩,
  -- 200: electromagnetism.py:94
  ⟨.unitQuantity, "kilovolt", (some (.mul (.num 1000 1) (.unit 199))), (some "kV"), none, ["kilovolts"]⟩,
  -- 201: electromagnetism.py:100
  ⟨.unitQuantity, "millivolt", (some (.div (.unit 199) (.num 1000 1))), (some "mV"), none, ["millivolts"]⟩,
  -- 202: electromagnetism.py:106
  ⟨.unitQuantity, "microvolt", (some (.div (.unit 199) (.num 1000000 1))), (some "uV"), (some "μV"), ["microvolts"]⟩,
  -- 203: electromagnetism.py:113
  ⟨.unitQuantity, "farad", (some (.div (.unit 196) (.unit 199))), (some "F"), none, ["farads"]⟩,
  -- 204: electromagnetism.py:119
  ⟨.unitQuantity, "millifarad", (some (.div (.unit 203) (.num 1000 1))), (some "mF"), none, []⟩,
  -- 205: electromagnetism.py:124
  ⟨.unitQuantity, "microfarad", (some (.div (.unit 204) (.num 1000 1))), (some "uF"), (some "μF"), []⟩,
  -- 206: electromagnetism.py:130
  ⟨.unitQuantity, "nanofarad", (some (.div (.unit 205) (.num 1000 1))), (some "nF"), none, []⟩,
  -- 207: electromagnetism.py:135
  ⟨.unitQuantity, "picofarad", (some (.div (.unit 206) (.num 1000 1))), (some "pF"), none, []⟩,
  -- 208: electromagnetism.py:140
  ⟨.unitQuantity, "femtofarad", (some (.div (.unit 207) (.num 1000 1))), (some "fF"), none, []⟩,
  -- 209: electromagnetism.py:145
  ⟨.unitQuantity, "ohm", (some (.div (.unit 199) (.unit 186))), none, (some "Ω"), ["ohms", "Ohm"]⟩,
  -- 210: electromagnetism.py:151
  ⟨.unitQuantity, "kiloohm", (some (.mul (.unit 209) (.num 1000 1))), none, (some "kΩ"), ["kOhm", "kohm", "kiloohms"]⟩,
  -- 211: electromagnetism.py:157
  ⟨.unitQuantity, "megaohm", (some (.mul (.unit 210) (.num 1000 1))), none, (some "MΩ"), ["MOhm", "Mohm", "megaohms"]⟩,
  -- 212: electromagnetism.py:163
  ⟨.unitQuantity, "siemens", (some (.div (.unit 186) (.unit 199))), (some "S"), none, []⟩,
  -- 213: electromagnetism.py:168
  ⟨.unitQuantity, "millisiemens", (some (.div (.unit 212) (.num 1000 1))), (some "mS"), none, []⟩,
  -- 214: electromagnetism.py:173
  ⟨.unitQuantity, "microsiemens", (some (.div (.unit 213) (.num 1000 1))), (some "uS"), (some "μS"), []⟩,
  -- 215: electromagnetism.py:179
  ⟨.unitQuantity, "nanosiemens", (some (.div (.unit 214) (.num 1000 1))), (some "nS"), none, []⟩,
  -- 216: electromagnetism.py:184
  ⟨.unitQuantity, "picosiemens", (some (.div (.unit 215) (.num 1000 1))), (some "pS"), none, []⟩,
  -- 217: electromagnetism.py:189
  ⟨.unitQuantity, "weber", (some (.mul (.unit 199) (.unit 1))), (some "Wb"), none, ["webers"]⟩,
  -- 218: electromagnetism.py:195
  ⟨.unitQuantity, "tesla", (some (.div (.unit 217) (.pow (.unit 34) 2 1))), (some "T"), none, ["teslas"]⟩,
  -- 219: electromagnetism.py:201
  ⟨.unitQuantity, "henry", (some (.div (.unit 217) (.unit 186))), (some "H"), none, []⟩,
  -- 220: electromagnetism.py:206
  ⟨.unitQuantity, "abfarad", (some (.mul (.num 1000000000 1) (.unit 203))), none, none, ["abfarads"]⟩,
  -- 221: electromagnetism.py:211
  ⟨.unitQuantity, "abhenry", (some (.mul (.num 1 1000000000) (.unit 219))), none, none, []⟩,
  -- 222: electromagnetism.py:215
  ⟨.unitQuantity, "abmho", (some (.mul (.num 1000000000 1) (.unit 212))), none, none, []⟩,
  -- 223: electromagnetism.py:219
  ⟨.unitQuantity, "abohm", (some (.mul (.num 1 1000000000) (.unit 209))), none, none, []⟩,
  -- 224: electromagnetism.py:223
  ⟨.unitQuantity, "abvolt", (some (.mul (.num 1 100000000) (.unit 199))), none, none, ["abvolts"]⟩,
  -- 225: electromagnetism.py:228
  ⟨.unitQuantity, "elementary_charge", (some (.mul (.num 1602176487 10000000000000000000000000000) (.unit 196))), (some "e"), none, []⟩,
  -- 226: electromagnetism.py:234
  ⟨.unitQuantity, "chemical_faraday", (some (.mul (.num 964957 10) (.unit 196))), none, none, []⟩,
  -- 227: electromagnetism.py:238
  ⟨.unitQuantity, "physical_faraday", (some (.mul (.num 965219 10) (.unit 196))), none, none, []⟩,
  -- 228: electromagnetism.py:242
  ⟨.unitQuantity, "faraday", (some (.mul (.num 964853399 10000) (.unit 196))), none, none, ["faradays"]⟩,
  -- 229: electromagnetism.py:248
  ⟨.unitQuantity, "gamma", (some (.mul (.num 1 1000000000) (.unit 218))), none, none, []⟩,
  -- 230: electromagnetism.py:252
  ⟨.unitQuantity, "gauss", (some (.mul (.num 1 10000) (.unit 218))), (some "G"), none, []⟩,
  -- 231: electromagnetism.py:257
  ⟨.unitQuantity, "maxwell", (some (.mul (.num 1 100000000) (.unit 217))), (some "Mx"), none, ["maxwells"]⟩,
  -- 232: electromagnetism.py:263
  ⟨.unitQuantity, "oersted", (some (.div (.mul (.div (.num 1000 1) (.mul (.num 4 1) .pi)) (.unit 186)) (.unit 34))), (some "Oe"), none, ["aliases"]⟩,
  -- 233: electromagnetism.py:269
  ⟨.unitQuantity, "statfarad", (some (.mul (.num 22253 20000000000000000) (.unit 203))), (some "stF"), none, ["statfarads", "statF"]⟩,
  -- 234: electromagnetism.py:275
  ⟨.unitQuantity, "stathenry", (some (.mul (.num 898755400000 1) (.unit 219))), (some "stH"), none, ["statH"]⟩,
  -- 235: electromagnetism.py:281
  ⟨.unitQuantity, "statmho", (some (.mul (.num 22253 20000000000000000) (.unit 212))), (some "stS"), none, []⟩,
  -- 236: electromagnetism.py:286
  ⟨.unitQuantity, "statohm", (some (.mul (.num 898755400000 1) (.unit 209))), none, (some "stΩ"), ["statohms"]⟩,
  -- 237: electromagnetism.py:292
  ⟨.unitQuantity, "statvolt", (some (.mul (.num 119917 400) (.unit 199))), (some "stV"), none, ["statvolts", "statV"]⟩,
  -- 238: electromagnetism.py:298
  ⟨.unitQuantity, "unit_pole", (some (.mul (.num 1256637 10000000000000) (.unit 217))), none, none, []⟩,
  -- 239: electromagnetism.py:302
  ⟨.unitQuantity, "magnetic_constant", (some (.div (.mul (.mul (.mul (.num 4 1) .pi) (.num 1 10000000)) (.unit 155)) (.pow (.unit 186) 2 1))), (some "mu_0"), (some "μ₀"), ["vacuum_permeability"]⟩,
  -- 240: electromagnetism.py:309
  ⟨.unitQuantity, "electric_constant", (some (.div (.num 1 1) (.mul (.unit 239) (.pow (.unit 184) 2 1)))), (some "epsilon_0"), (some "ε₀"), ["vacuum_permittivity"]⟩,
  -- 241: electromagnetism.py:317
  ⟨.unitQuantity, "characteristic_impedance_of_vacuum", (some (.mul (.unit 239) (.unit 184))), (some "Z_0"), (some "Z₀"), ["impedence_of_free_space"]⟩,
  -- 242: electromagnetism.py:325
  ⟨.luminousIntensity, "candela", none, (some "cd"), none, ["candle", "candles", "candelas"]⟩]

/-- `quantities/units/frequency.py`, rows 243-248 -/
def t_frequency : List Row := [
  -- 243: frequency.py:10
  ⟨.unitQuantity, "hertz", (some (.pow (.unit 1) (-1) 1)), (some "Hz"), none, []⟩,
  -- 244: frequency.py:15
  ⟨.unitQuantity, "kilohertz", (some (.mul (.unit 243) (.num 1000 1))), (some "kHz"), none, []⟩,
  -- 245: frequency.py:20
  ⟨.unitQuantity, "megahertz", (some (.mul (.unit 244) (.num 1000 1))), (some "MHz"), none, []⟩,
  -- 246: frequency.py:25
  ⟨.unitQuantity, "gigahertz", (some (.mul (.unit 245) (.num 1000 1))), (some "GHz"), none, []⟩,
  -- 247: frequency.py:30
  ⟨.unitQuantity, "revolutions_per_minute", (some (.div (.unit 69) (.unit 10))), (some "rpm"), none, []⟩,
  -- 248: frequency.py:35
  ⟨.unitQuantity, "counts_per_second", (some (.div (.unit 128) (.unit 1))), none, none, []⟩]

/-- `quantities/units/temperature.py`, rows 249-272 -/
def t_temperature : List Row := [
  -- 249: temperature.py:7
  ⟨.temperature, "Kelvin", none, (some "K"), none, ["degK", "kelvin"]⟩,
  -- 250: temperature.py:35
  ⟨.temperature, "yottakelvin", (some (.mul (.unit 249) (.num 1000000000000000000000000 1))), (some "YK"), none, []⟩,
  -- 251: temperature.py:35
  ⟨.temperature, "zettakelvin", (some (.mul (.unit 249) (.num 1000000000000000000000 1))), (some "ZK"), none, []⟩,
  -- 252: temperature.py:35
  ⟨.temperature, "exakelvin", (some (.mul (.unit 249) (.num 1000000000000000000 1))), (some "EK"), none, []⟩,
  -- 253: temperature.py:35
  ⟨.temperature, "petakelvin", (some (.mul (.unit 249) (.num 1000000000000000 1))), (some "PK"), none, []⟩,
  -- 254: temperature.py:35
  ⟨.temperature, "terakelvin", (some (.mul (.unit 249) (.num 1000000000000 1))), (some "TK"), none, []⟩,
  -- 255: temperature.py:35
  ⟨.temperature, "gigakelvin", (some (.mul (.unit 249) (.num 1000000000 1))), (some "GK"), none, []⟩,
  -- 256: temperature.py:35
  ⟨.temperature, "megakelvin", (some (.mul (.unit 249) (.num 1000000 1))), (some "MK"), none, []⟩,
  -- 257: temperature.py:35
  ⟨.temperature, "kilokelvin", (some (.mul (.unit 249) (.num 1000 1))), (some "kK"), none, []⟩,
  -- 258: temperature.py:35
  ⟨.temperature, "hectokelvin", (some (.mul (.unit 249) (.num 100 1))), (some "hK"), none, []⟩,
  -- 259: temperature.py:35
  ⟨.temperature, "dekakelvin", (some (.mul (.unit 249) (.num 10 1))), (some "daK"), none, []⟩,
  -- 260: temperature.py:35
  ⟨.temperature, "decikelvin", (some (.mul (.unit 249) (.num 1 10))), (some "dK"), none, []⟩,
  -- 261: temperature.py:35
  ⟨.temperature, "centikelvin", (some (.mul (.unit 249) (.num 1 100))), (some "cK"), none, []⟩,
  -- 262: temperature.py:35
  ⟨.temperature, "millikelvin", (some (.mul (.unit 249) (.num 1 1000))), (some "mK"), none, []⟩,
  -- 263: temperature.py:35
  ⟨.temperature, "microkelvin", (some (.mul (.unit 249) (.num 1 1000000))), (some "uK"), none, []⟩,
  -- 264: temperature.py:35
  ⟨.temperature, "nanokelvin", (some (.mul (.unit 249) (.num 1 1000000000))), (some "nK"), none, []⟩,
  -- 265: temperature.py:35
  ⟨.temperature, "picokelvin", (some (.mul (.unit 249) (.num 1 1000000000000))), (some "pK"), none, []⟩,
  -- 266: temperature.py:35
  ⟨.temperature, "femtokelvin", (some (.mul (.unit 249) (.num 1 1000000000000000))), (some "fK"), none, []⟩,
  -- 267: temperature.py:35
  ⟨.temperature, "attokelvin", (some (.mul (.unit 249) (.num 1 1000000000000000000))), (some "aK"), none, []⟩,
  -- 268: temperature.py:35
  ⟨.temperature, "zeptokelvin", (some (.mul (.unit 249) (.num 1 1000000000000000000000))), (some "zK"), none, []⟩,
  -- 269: temperature.py:35
  ⟨.temperature, "yoctokelvin", (some (.mul (.unit 249) (.num 1 1000000000000000000000000))), (some "yK"), none, []⟩,
  -- 270: temperature.py:41
  ⟨.temperature, "Rankine", (some (.div (.unit 249) (.num 9 5))), (some "degR"), (some "°R"), ["rankine"]⟩,
  -- 271: temperature.py:48
  ⟨.temperature, "Celsius", (some (.unit 249)), (some "degC"), (some "°C"), ["celsius"]⟩,
  -- 272: temperature.py:59
  ⟨.temperature, "Fahrenheit", (some (.unit 270)), (some "degF"), (some "°F"), ["fahrenheit"]⟩]

/-- `quantities/units/power.py`, rows 273-282 -/
def t_power : List Row := [
  -- 273: power.py:12
  ⟨.unitQuantity, "watt", (some (.div (.unit 166) (.unit 1))), (some "W"), none, ["watts", "volt_ampere", "volt_amperes", "VA"]⟩,
  -- 274: power.py:18
  ⟨.unitQuantity, "milliwatt", (some (.div (.unit 273) (.num 1000 1))), (some "mW"), none, ["milliwatts"]⟩,
  -- 275: power.py:24
  ⟨.unitQuantity, "kilowatt", (some (.mul (.num 1000 1) (.unit 273))), (some "kW"), none, ["kilowatts"]⟩,
  -- 276: power.py:30
  ⟨.unitQuantity, "megawatt", (some (.mul (.num 1000 1) (.unit 275))), (some "MW"), none, ["megawatts"]⟩,
  -- 277: power.py:36
  ⟨.unitQuantity, "horsepower", (some (.div (.mul (.mul (.num 33000 1) (.unit 45)) (.unit 161)) (.unit 10))), (some "hp"), none, ["UK_horsepower", "British_horsepower"]⟩,
  -- 278: power.py:42
  ⟨.unitQuantity, "boiler_horsepower", (some (.div (.mul (.num 33475 1) (.unit 168)) (.unit 11))), none, none, []⟩,
  -- 279: power.py:46
  ⟨.unitQuantity, "metric_horsepower", (some (.mul (.num 588399 800000) (.unit 275))), none, none, []⟩,
  -- 280: power.py:51
  ⟨.unitQuantity, "electric_horsepower", (some (.mul (.num 746 1) (.unit 273))), none, none, []⟩,
  -- 281: power.py:55
  ⟨.unitQuantity, "water_horsepower", (some (.mul (.num 746043 1000) (.unit 273))), none, none, []⟩,
  -- 282: power.py:61
  ⟨.unitQuantity, "refrigeration_ton", (some (.div (.mul (.num 12000 1) (.unit 168)) (.unit 11))), none, none, ["ton_of_refrigeration"]⟩]

/-- `quantities/units/heat.py`, rows 283-285 -/
def t_heat : List Row := [
  -- 283: heat.py:12
  ⟨.unitQuantity, "RSI", (some (.div (.mul (.unit 249) (.pow (.unit 34) 2 1)) (.unit 273))), none, none, []⟩,
  -- 284: heat.py:18
  ⟨.unitQuantity, "clo", (some (.mul (.num 31 200) (.unit 283))), none, none, ["clos"]⟩,
  -- 285: heat.py:24
  ⟨.unitQuantity, "R_value", (some (.div (.mul (.mul (.pow (.unit 45) 2 1) (.unit 272)) (.unit 11)) (.unit 168))), none, none, []⟩]

/-- `quantities/units/information.py`, rows 286-304 -/
def t_information : List Row := [
  -- 286: information.py:7
  ⟨.information, "bit", none, none, none, ["bits"]⟩,
  -- 287: information.py:11
  ⟨.information, "byte", (some (.mul (.num 8 1) (.unit 286))), (some "B"), none, ["bytes", "o", "octet", "octets"]⟩,
  -- 288: information.py:17
  ⟨.information, "kilobyte", (some (.mul (.num 1000 1) (.unit 287))), (some "kB"), none, ["kilobytes", "kilooctet", "kilooctets"]⟩,
  -- 289: information.py:23
  ⟨.information, "megabyte", (some (.mul (.num 1000 1) (.unit 288))), (some "MB"), none, ["megabytes", "megaoctet", "megaoctets"]⟩,
  -- 290: information.py:29
  ⟨.information, "gigabyte", (some (.mul (.num 1000 1) (.unit 289))), (some "GB"), none, ["gigabytes", "gigaoctet", "gigaoctets"]⟩,
  -- 291: information.py:35
  ⟨.information, "terabyte", (some (.mul (.num 1000 1) (.unit 290))), (some "TB"), none, ["terabytes", "teraoctet", "teraoctets"]⟩,
  -- 292: information.py:41
  ⟨.information, "petabyte", (some (.mul (.num 1000 1) (.unit 291))), (some "PB"), none, ["petabytes", "petaoctet", "petaoctets"]⟩,
  -- 293: information.py:47
  ⟨.information, "exabyte", (some (.mul (.num 1000 1) (.unit 292))), (some "EB"), none, ["exabytes", "exaoctet", "exaoctets"]⟩,
  -- 294: information.py:53
  ⟨.information, "zettabyte", (some (.mul (.num 1000 1) (.unit 293))), (some "ZB"), none, ["zettabytes", "zettaoctet", "zettaoctets"]⟩,
  -- 295: information.py:59
  ⟨.information, "yottabyte", (some (.mul (.num 1000 1) (.unit 294))), (some "YB"), none, ["yottabytes", "yottaoctet", "yottaoctets"]⟩,
  -- 296: information.py:65
  ⟨.unitQuantity, "baud", (some (.div (.unit 286) (.unit 1))), (some "Bd"), none, []⟩,
  -- 297: information.py:72
  ⟨.information, "kibibyte", (some (.mul (.num 1024 1) (.unit 287))), (some "KiB"), none, ["kibibytes", "kibioctet", "kibioctets"]⟩,
  -- 298: information.py:78
  ⟨.information, "mebibyte", (some (.mul (.num 1024 1) (.unit 297))), (some "MiB"), none, ["mebibytes", "mebioctet", "mebioctets"]⟩,
  -- 299: information.py:84
  ⟨.information, "gibibyte", (some (.mul (.num 1024 1) (.unit 298))), (some "GiB"), none, ["gibibytes", "gibioctet", "gibioctets"]⟩,
  -- 300: information.py:90
  ⟨.information, "tebibyte", (some (.mul (.num 1024 1) (.unit 299))), (some "TiB"), none, ["tebibytes", "tebioctet", "tebioctets"]⟩,
  -- 301: information.py:96
  ⟨.information, "pebibyte", (some (.mul (.num 1024 1) (.unit 300))), (some "PiB"), none, ["pebibytes", "pebioctet", "pebioctets"]⟩,
  -- 302: information.py:102
  ⟨.information, "exbibyte", (some (.mul (.num 1024 1) (.unit 301))), (some "EiB"), none, ["exbibytes", "exbioctet", "exbioctets"]⟩,
  -- 303: information.py:108
  ⟨.information, "zebibyte", (some (.mul (.num 1024 1) (.unit 302))), (some "ZiB"), none, ["zebibytes", "zebioctet", "zebioctets"]⟩,
  -- 304: information.py:114
  ⟨.information, "yobibyte", (some (.mul (.num 1024 1) (.unit 303))), (some "YiB"), none, ["yobibytes", "yobioctet", "yobioctets"]⟩]

/-- `quantities/units/pressure.py`, rows 305-334 -/
def t_pressure : List Row := [
  -- 305: pressure.py:11
  ⟨.unitQuantity, "conventional_mercury", (some (.div (.mul (.mul (.unit 65) (.num 135951 10000)) (.unit 131)) (.pow (.unit 37) 3 1))), none, none, []⟩,
  -- 306: pressure.py:15
  ⟨.unitQuantity, "mercury_60F", (some (.div (.mul (.mul (.unit 65) (.num 67784 5)) (.unit 130)) (.pow (.unit 34) 3 1))), none, none, []⟩,
  -- 307: pressure.py:16
  ⟨.unitQuantity, "H2O", (some (.div (.mul (.mul (.unit 65) (.num 1000 1)) (.unit 130)) (.pow (.unit 34) 3 1))), none, none, []⟩,
  -- 308: pressure.py:17
  ⟨.unitQuantity, "water_4C", (some (.div (.mul (.mul (.unit 65) (.num 249993 250)) (.unit 130)) (.pow (.unit 34) 3 1))), none, none, []⟩,
  -- 309: pressure.py:18
  ⟨.unitQuantity, "water_60F", (some (.div (.mul (.mul (.unit 65) (.num 999001 1000)) (.unit 130)) (.pow (.unit 34) 3 1))), none, none, []⟩,
  -- 310: pressure.py:20
  ⟨.unitQuantity, "pascal", (some (.div (.unit 155) (.pow (.unit 34) 2 1))), (some "Pa"), none, ["pascals"]⟩,
  -- 311: pressure.py:26
  ⟨.unitQuantity, "hectopascal", (some (.mul (.num 100 1) (.unit 310))), (some "hPa"), none, []⟩,
  -- 312: pressure.py:31
  ⟨.unitQuantity, "kilopascal", (some (.mul (.num 1000 1) (.unit 310))), (some "kPa"), none, ["kilopascals"]⟩,
  -- 313: pressure.py:37
  ⟨.unitQuantity, "megapascal", (some (.mul (.num 1000 1) (.unit 312))), (some "MPa"), none, ["megapascals"]⟩,
  -- 314: pressure.py:43
  ⟨.unitQuantity, "gigapascal", (some (.mul (.num 1000 1) (.unit 313))), (some "GPa"), none, ["gigapascals"]⟩,
  -- 315: pressure.py:49
  ⟨.unitQuantity, "bar", (some (.mul (.num 100000 1) (.unit 310))), none, none, ["bars"]⟩,
  -- 316: pressure.py:54
  ⟨.unitQuantity, "millibar", (some (.mul (.num 1 1000) (.unit 315))), (some "mbar"), none, ["millibars"]⟩,
  -- 317: pressure.py:60
  ⟨.unitQuantity, "kilobar", (some (.mul (.num 1000 1) (.unit 315))), (some "kbar"), none, ["kilobars"]⟩,
  -- 318: pressure.py:66
  ⟨.unitQuantity, "megabar", (some (.mul (.num 1000 1) (.unit 317))), (some "Mbar"), none, ["megabars"]⟩,
  -- 319: pressure.py:72
  ⟨.unitQuantity, "gigabar", (some (.mul (.num 1000 1) (.unit 318))), (some "Gbar"), none, ["gigabars"]⟩,
  -- 320: pressure.py:78
  ⟨.unitQuantity, "standard_atmosphere", (some (.mul (.num 101325 1) (.unit 310))), (some "atm"), none, ["atmosphere", "atmospheres", "standard_atmospheres"]⟩,
  -- 321: pressure.py:84
  ⟨.unitQuantity, "technical_atmosphere", (some (.div (.mul (.unit 130) (.unit 65)) (.pow (.unit 37) 2 1))), (some "at"), none, ["technical_atmospheres"]⟩,
  -- 322: pressure.py:90
  ⟨.unitQuantity, "torr", (some (.div (.unit 320) (.num 760 1))), none, none, []⟩,
  -- 323: pressure.py:94
  ⟨.unitQuantity, "pound_force_per_square_inch", (some (.div (.mul (.unit 134) (.unit 65)) (.pow (.unit 44) 2 1))), (some "psi"), none, []⟩,
  -- 324: pressure.py:99
  ⟨.unitQuantity, "kip_per_square_inch", (some (.div (.unit 165) (.pow (.unit 44) 2 1))), (some "ksi"), none, []⟩,
  -- 325: pressure.py:104
  ⟨.unitQuantity, "barye", (some (.div (.mul (.num 1 10) (.unit 155)) (.pow (.unit 34) 2 1))), (some "Ba"), none, ["barie", "baries", "baryes", "barad", "barads", "barrie", "baryd", "baryed"]⟩,
  -- 326: pressure.py:114
  ⟨.unitQuantity, "millimeter_Hg", (some (.mul (.unit 38) (.unit 305))), (some "mmHg"), none, ["mm_Hg", "millimeter_Hg_0C"]⟩,
  -- 327: pressure.py:127
  ⟨.unitQuantity, "cmHg", (some (.mul (.unit 37) (.unit 305))), none, none, ["cm_Hg", "centimeter_Hg"]⟩,
  -- 328: pressure.py:132
  ⟨.unitQuantity, "inHg", (some (.mul (.unit 44) (.unit 305))), none, none, ["in_Hg", "inch_Hg", "inch_Hg_32F"]⟩,
  -- 329: pressure.py:137
  ⟨.unitQuantity, "inch_Hg_60F", (some (.mul (.unit 44) (.unit 306))), none, none, []⟩,
  -- 330: pressure.py:142
  ⟨.unitQuantity, "inch_H2O_39F", (some (.mul (.unit 44) (.unit 308))), none, none, []⟩,
  -- 331: pressure.py:146
  ⟨.unitQuantity, "inch_H2O_60F", (some (.mul (.unit 44) (.unit 309))), none, none, []⟩,
  -- 332: pressure.py:150
  ⟨.unitQuantity, "footH2O", (some (.mul (.unit 45) (.unit 307))), none, none, []⟩,
  -- 333: pressure.py:154
  ⟨.unitQuantity, "cmH2O", (some (.mul (.unit 37) (.unit 307))), none, none, []⟩,
  -- 334: pressure.py:158
  ⟨.unitQuantity, "foot_H2O", (some (.mul (.unit 45) (.unit 307))), none, none, ["ftH2O"]⟩]

/-- `quantities/units/radiation.py`, rows 335-341 -/
def t_radiation : List Row := [
  -- 335: radiation.py:11
  ⟨.unitQuantity, "becquerel", (some (.div (.num 1 1) (.unit 1))), (some "Bq"), none, ["becquerels"]⟩,
  -- 336: radiation.py:17
  ⟨.unitQuantity, "curie", (some (.mul (.num 37000000000 1) (.unit 335))), (some "Ci"), none, ["curies"]⟩,
  -- 337: radiation.py:23
  ⟨.unitQuantity, "rutherford", (some (.mul (.num 1000000 1) (.unit 335))), (some "Rd"), none, ["rutherfords"]⟩,
  -- 338: radiation.py:30
  ⟨.unitQuantity, "gray", (some (.div (.unit 166) (.unit 130))), (some "Gy"), none, ["grays", "Sv", "sievert", "sieverts"]⟩,
  -- 339: radiation.py:36
  ⟨.unitQuantity, "rem", (some (.mul (.num 1 100) (.unit 338))), none, none, ["rems"]⟩,
  -- 340: radiation.py:41
  ⟨.unitQuantity, "rads", (some (.mul (.num 1 100) (.unit 338))), none, none, []⟩,
  -- 341: radiation.py:49
  ⟨.unitQuantity, "roentgen", (some (.div (.mul (.num 129 500000) (.unit 196)) (.unit 130))), (some "R"), none, ["roentgens"]⟩]

/-- `quantities/units/viscosity.py`, rows 342-345 -/
def t_viscosity : List Row := [
  -- 342: viscosity.py:10
  ⟨.unitQuantity, "poise", (some (.mul (.mul (.num 1 10) (.unit 310)) (.unit 1))), (some "P"), none, []⟩,
  -- 343: viscosity.py:15
  ⟨.unitQuantity, "centipoise", (some (.div (.unit 342) (.num 100 1))), (some "cP"), none, []⟩,
  -- 344: viscosity.py:20
  ⟨.unitQuantity, "stokes", (some (.div (.mul (.num 1 10000) (.pow (.unit 34) 2 1)) (.unit 1))), (some "St"), none, []⟩,
  -- 345: viscosity.py:25
  ⟨.unitQuantity, "rhe", (some (.div (.num 10 1) (.mul (.unit 310) (.unit 1)))), none, none, []⟩]

/-- `quantities/constants/alpha.py`, rows 346-352 -/
def c_alpha : List Row := [
  -- 346: alpha.py:8
  ⟨.constant, "alpha_particle_mass", (some (.quantity 33223281 5000000000000000000000000000000000 (.unit 130))), (some "m_alpha"), (some "m_α"), []⟩,
  -- 347: alpha.py:14
  ⟨.constant, "alpha_particle_mass_energy_equivalent", (some (.quantity 597191917 1000000000000000000 (.unit 166))), (some "(m_alpha*c**2)"), (some "(m_α·c²)"), []⟩,
  -- 348: alpha.py:20
  ⟨.constant, "alpha_particle_mass_energy_equivalent_in_MeV", (some (.quantity 3727379109 1000000 (.unit 172))), none, none, []⟩,
  -- 349: alpha.py:24
  ⟨.constant, "alpha_particle_mass_in_u", (some (.quantity 4001506179127 1000000000000 (.unit 145))), none, none, []⟩,
  -- 350: alpha.py:28
  ⟨.constant, "alpha_particle_molar_mass", (some (.quantity 4001506179127 1000000000000000 (.mul (.unit 130) (.pow (.unit 88) (-1) 1)))), (some "M_alpha"), (some "M_α"), []⟩,
  -- 351: alpha.py:34
  ⟨.constant, "alpha_particle_electron_mass_ratio", (some (.quantity 14588599073 2000000 (.unit 0))), (some "(m_alpha/m_e)"), (some "(m_α/mₑ)"), []⟩,
  -- 352: alpha.py:40
  ⟨.constant, "alpha_particle_proton_mass_ratio", (some (.quantity 397259968951 100000000000 (.unit 0))), (some "(m_alpha/m_p)"), (some "(m_α/m_p)"), []⟩]

/-- `quantities/constants/astronomy.py`, rows 353-354 -/
def c_astronomy : List Row := [
  -- 353: astronomy.py:9
  ⟨.constant, "astronomical_unit", (some (.quantity 149597870700 1 (.unit 34))), (some "au"), none, []⟩,
  -- 354: astronomy.py:15
  ⟨.constant, "Newtonian_constant_of_gravitation", (some (.quantity 166857 2500000000000000 (.mul (.mul (.pow (.unit 34) 3 1) (.pow (.unit 130) (-1) 1)) (.pow (.unit 1) (-2) 1)))), (some "G"), none, []⟩]

/-- `quantities/constants/atomicunits.py`, rows 355-409 -/
def c_atomicunits : List Row := [
  -- 355: atomicunits.py:8
  ⟨.constant, "atomic_mass_constant", (some (.quantity 830269391 500000000000000000000000000000000000 (.unit 130))), (some "m_u"), (some "mᵤ"), []⟩,
  -- 356: atomicunits.py:14
  ⟨.constant, "atomic_unit_of_1st_hyperpolarizability", (some (.quantity 3206361533 100000000000000000000000000000000000000000000000000000000000000 (.mul (.mul (.pow (.unit 196) 3 1) (.pow (.unit 34) 3 1)) (.pow (.unit 166) (-2) 1)))), (some "(e**3*a_0**3/E_h**2)"), (some "(e³·a₀³/E_h²)"), []⟩,
  -- 357: atomicunits.py:20
  ⟨.constant, "atomic_unit_of_2nd_hyperpolarizability", (some (.quantity 124707619 2000000000000000000000000000000000000000000000000000000000000000000000000 (.mul (.mul (.pow (.unit 196) 4 1) (.pow (.unit 34) 4 1)) (.pow (.unit 166) (-3) 1)))), (some "(e**4*a_0**4/E_h**3)"), (some "(e⁴·a₀⁴/E_h³)"), []⟩,
  -- 358: atomicunits.py:26
  ⟨.constant, "atomic_unit_of_action", (some (.quantity 263642907 2500000000000000000000000000000000000000000 (.mul (.unit 166) (.unit 1)))), (some "hbar"), (some "ħ"), []⟩,
  -- 359: atomicunits.py:32
  ⟨.constant, "atomic_unit_of_charge", (some (.quantity 1602176487 10000000000000000000000000000 (.unit 196))), (some "e"), none, []⟩,
  -- 360: atomicunits.py:37
  ⟨.constant, "atomic_unit_of_charge_density", (some (.quantity 1081202300000 1 (.mul (.unit 196) (.pow (.unit 34) (-3) 1)))), (some "(e/a_0**3)"), (some "(e/a₀³)"), []⟩,
  -- 361: atomicunits.py:43
  ⟨.constant, "atomic_unit_of_current", (some (.quantity 662361763 100000000000 (.unit 186))), (some "(e*E_h/hbar)"), (some "(e·E_h/ħ)"), []⟩,
  -- 362: atomicunits.py:49
  ⟨.constant, "atomic_unit_of_electric_dipole_moment", (some (.quantity 847835281 100000000000000000000000000000000000000 (.mul (.unit 196) (.unit 34)))), (some "(e*a_0)"), (some "(e·a₀)"), []⟩,
  -- 363: atomicunits.py:55
  ⟨.constant, "atomic_unit_of_electric_field", (some (.quantity 514220632000 1 (.mul (.unit 199) (.pow (.unit 34) (-1) 1)))), (some "(E_h/(e*a_0))"), (some "(E_h/(e·a₀))"), []⟩,
  -- 364: atomicunits.py:61
  ⟨.constant, "atomic_unit_of_electric_field_gradient", (some (.quantity 9717361660000000000000 1 (.mul (.unit 199) (.pow (.unit 34) (-2) 1)))), (some "(E_h/(e*a_0**2))"), (some "(E_h/(e·a₀²))"), []⟩,
  -- 365: atomicunits.py:67
  ⟨.constant, "atomic_unit_of_electric_polarizability", (some (.quantity 2060971567 125000000000000000000000000000000000000000000000000 (.mul (.mul (.pow (.unit 196) 2 1) (.pow (.unit 34) 2 1)) (.pow (.unit 166) (-1) 1)))), (some "(e**2*a_0**2/E_h)"), (some "(e²·a₀²/E_h)"), []⟩,
  -- 366: atomicunits.py:73
  ⟨.constant, "atomic_unit_of_electric_potential", (some (.quantity 1360569193 50000000 (.unit 199))), (some "(E_h/e)"), none, []⟩,
  -- 367: atomicunits.py:78
  ⟨.constant, "atomic_unit_of_electric_quadrupole_moment", (some (.quantity 448655107 1000000000000000000000000000000000000000000000000 (.mul (.unit 196) (.pow (.unit 34) 2 1)))), (some "(e*a_0**2)"), (some "(e·a₀²)"), []⟩,
  -- 368: atomicunits.py:84
  ⟨.constant, "atomic_unit_of_energy", (some (.quantity 217987197 50000000000000000000000000 (.unit 166))), none, none, []⟩,
  -- 369: atomicunits.py:88
  ⟨.constant, "atomic_unit_of_force", (some (.quantity 411936103 5000000000000000 (.unit 155))), (some "(E_h/a_0)"), (some "(E_h/a₀)"), []⟩,
  -- 370: atomicunits.py:94
  ⟨.constant, "atomic_unit_of_length", (some (.quantity 52917720859 1000000000000000000000 (.unit 34))), (some "a_0"), (some "a₀"), []⟩,
  -- 371: atomicunits.py:100
  ⟨.constant, "Bohr_radius", (some (.quantity 52917720859 1000000000000000000000 (.unit 34))), (some "a_0"), (some "a₀"), []⟩,
  -- 372: atomicunits.py:106
  ⟨.constant, "atomic_unit_of_magnetic_dipole_moment", (some (.quantity 185480183 10000000000000000000000000000000 (.mul (.unit 166) (.pow (.unit 218) (-1) 1)))), (some "(hbar*e/m_e)"), (some "(ħ·e/mₑ)"), []⟩,
  -- 373: atomicunits.py:112
  ⟨.constant, "atomic_unit_of_magnetic_flux_density", (some (.quantity 1175258691 5000 (.unit 218))), (some "(hbar*e/a_0**2)"), (some "(ħ·e/a₀²)"), []⟩,
  -- 374: atomicunits.py:118
  ⟨.constant, "atomic_unit_of_magnetizability", (some (.quantity 7891036433 100000000000000000000000000000000000000 (.mul (.unit 166) (.pow (.unit 218) (-2) 1)))), (some "(e**2a_0**2/m_e)"), (some "(e²·a₀²/mₑ)"), []⟩,
  -- 375: atomicunits.py:124
  ⟨.constant, "atomic_unit_of_mass", (some (.quantity 182187643 200000000000000000000000000000000000000 (.unit 130))), (some "m_e"), (some "mₑ"), []⟩,
  -- 376: atomicunits.py:130
  ⟨.constant, "atomic_unit_of_momentum", (some (.quantity 398570313 200000000000000000000000000000000 (.mul (.mul (.unit 130) (.unit 34)) (.pow (.unit 1) (-1) 1)))), (some "(hbar/a_0)"), (some "(ħ/a₀)"), []⟩,
  -- 377: atomicunits.py:136
  ⟨.constant, "atomic_unit_of_permittivity", (some (.quantity 139081257 1250000000000000000 (.mul (.unit 203) (.pow (.unit 34) (-1) 1)))), (some "(e**2/(a_0*E_h))"), (some "(e²/(a₀·E_h))"), []⟩,
  -- 378: atomicunits.py:142
  ⟨.constant, "atomic_unit_of_time", (some (.quantity 483776865301 20000000000000000000000000000 (.unit 1))), (some "(hbar/E_h)"), (some "(ħ/E_h)"), []⟩,
  -- 379: atomicunits.py:148
  ⟨.constant, "atomic_unit_of_velocity", (some (.quantity 21876912541 10000 (.mul (.unit 34) (.pow (.unit 1) (-1) 1)))), (some "(a_0*E_h/hbar)"), (some "(a₀·E_h/ħ)"), []⟩,
  -- 380: atomicunits.py:154
  ⟨.constant, "Hartree_energy", (some (.quantity 217987197 50000000000000000000000000 (.unit 166))), (some "E_h"), none, []⟩,
  -- 381: atomicunits.py:159
  ⟨.constant, "unified_atomic_mass_unit", (some (.quantity 830269391 500000000000000000000000000000000000 (.unit 130))), (some "u"), none, []⟩,
  -- 382: atomicunits.py:164
  ⟨.constant, "molar_mass_of_carbon_12", (some (.quantity 3 250 (.mul (.unit 130) (.pow (.unit 88) (-1) 1)))), (some "M_C12"), (some "M_¹²C"), []⟩,
  -- 383: atomicunits.py:171
  ⟨.constant, "atomic_mass_constant_energy_equivalent", (some (.quantity 149241783 1000000000000000000 (.unit 166))), (some "(m_u*c**2)"), (some "(mᵤ·c²)"), []⟩,
  -- 384: atomicunits.py:177
  ⟨.constant, "atomic_mass_constant_energy_equivalent_in_MeV", (some (.quantity 232873507 250000 (.unit 172))), none, none, []⟩,
  -- 385: atomicunits.py:181
  ⟨.constant, "Hartree_energy_in_eV", (some (.quantity 1360569193 50000000 (.unit 169))), none, none, []⟩,
  -- 386: atomicunits.py:186
  ⟨.constant, "atomic_mass_unit_electron_volt_relationship", (some (.quantity 931494028 1 (.unit 169))), none, none, []⟩,
  -- 387: atomicunits.py:190
  ⟨.constant, "atomic_mass_unit_hartree_relationship", (some (.quantity 34231777149 1000 (.unit 183))), none, none, []⟩,
  -- 388: atomicunits.py:194
  ⟨.constant, "atomic_mass_unit_hertz_relationship", (some (.quantity 225234273690000000000000 1 (.unit 243))), none, none, []⟩,
  -- 389: atomicunits.py:198
  ⟨.constant, "atomic_mass_unit_inverse_meter_relationship", (some (.quantity 751300667100000 1 (.pow (.unit 34) (-1) 1))), none, none, []⟩,
  -- 390: atomicunits.py:202
  ⟨.constant, "atomic_mass_unit_joule_relationship", (some (.quantity 149241783 1000000000000000000 (.unit 166))), (some "(u*c**2)"), (some "(u·c²)"), []⟩,
  -- 391: atomicunits.py:208
  ⟨.constant, "atomic_mass_unit_kelvin_relationship", (some (.quantity 10809527000000 1 (.unit 249))), none, none, []⟩,
  -- 392: atomicunits.py:212
  ⟨.constant, "atomic_mass_unit_kilogram_relationship", (some (.quantity 830269391 500000000000000000000000000000000000 (.unit 130))), none, none, []⟩,
  -- 393: atomicunits.py:217
  ⟨.constant, "hartree_atomic_mass_unit_relationship", (some (.quantity 14606311493 500000000000000000 (.unit 145))), none, none, []⟩,
  -- 394: atomicunits.py:221
  ⟨.constant, "hartree_electron_volt_relationship", (some (.quantity 1360569193 50000000 (.unit 169))), none, none, []⟩,
  -- 395: atomicunits.py:225
  ⟨.constant, "hartree_hertz_relationship", (some (.quantity 6579683920722000 1 (.unit 243))), none, none, []⟩,
  -- 396: atomicunits.py:229
  ⟨.constant, "hartree_inverse_meter_relationship", (some (.quantity 438949262741 20000 (.pow (.unit 34) (-1) 1))), none, none, []⟩,
  -- 397: atomicunits.py:233
  ⟨.constant, "hartree_joule_relationship", (some (.quantity 217987197 50000000000000000000000000 (.unit 166))), none, none, []⟩,
  -- 398: atomicunits.py:237
  ⟨.constant, "hartree_kelvin_relationship", (some (.quantity 6315493 20 (.unit 249))), none, none, []⟩,
  -- 399: atomicunits.py:241
  ⟨.constant, "hartree_kilogram_relationship", (some (.quantity 242543467 5000000000000000000000000000000000000000000 (.unit 130))), none, none, []⟩,
  -- 400: atomicunits.py:245
  ⟨.constant, "hertz_atomic_mass_unit_relationship", (some (.quantity 22199108147 5000000000000000000000000000000000 (.unit 145))), none, none, []⟩,
  -- 401: atomicunits.py:249
  ⟨.constant, "hertz_hartree_relationship", (some (.quantity 759914923003 5000000000000000000000000000 (.unit 183))), none, none, []⟩,
  -- 402: atomicunits.py:253
  ⟨.constant, "inverse_meter_atomic_mass_unit_relationship", (some (.quantity 6655125197 5000000000000000000000000 (.unit 145))), none, none, []⟩,
  -- 403: atomicunits.py:257
  ⟨.constant, "inverse_meter_hartree_relationship", (some (.quantity 113908381319 2500000000000000000 (.unit 183))), none, none, []⟩,
  -- 404: atomicunits.py:261
  ⟨.constant, "joule_atomic_mass_unit_relationship", (some (.quantity 6700536410 1 (.unit 145))), none, none, []⟩,
  -- 405: atomicunits.py:265
  ⟨.constant, "joule_hartree_relationship", (some (.quantity 229371269000000000 1 (.unit 183))), none, none, []⟩,
  -- 406: atomicunits.py:269
  ⟨.constant, "kelvin_atomic_mass_unit_relationship", (some (.quantity 4625549 50000000000000000000 (.unit 145))), none, none, []⟩,
  -- 407: atomicunits.py:273
  ⟨.constant, "kelvin_hartree_relationship", (some (.quantity 31668153 10000000000000 (.unit 183))), none, none, []⟩,
  -- 408: atomicunits.py:277
  ⟨.constant, "kilogram_atomic_mass_unit_relationship", (some (.quantity 602214179000000000000000000 1 (.unit 145))), none, none, []⟩,
  -- 409: atomicunits.py:281
  ⟨.constant, "kilogram_hartree_relationship", (some (.quantity 20614861600000000000000000000000000 1 (.unit 183))), none, none, []⟩]

/-- `quantities/constants/deuteron.py`, rows 410-424 -/
def c_deuteron : List Row := [
  -- 410: deuteron.py:8
  ⟨.constant, "deuteron_rms_charge_radius", (some (.quantity 10701 5000000000000000000 (.unit 34))), (some "R_d"), none, []⟩,
  -- 411: deuteron.py:13
  ⟨.constant, "deuteron_mass", (some (.quantity 4179479 1250000000000000000000000000000000 (.unit 130))), (some "m_d"), none, []⟩,
  -- 412: deuteron.py:18
  ⟨.constant, "deuteron_g_factor", (some (.quantity 2143595577 2500000000 (.unit 0))), (some "g_d"), none, []⟩,
  -- 413: deuteron.py:23
  ⟨.constant, "deuteron_magnetic_moment", (some (.quantity 86614693 20000000000000000000000000000000000 (.mul (.unit 166) (.pow (.unit 218) (-1) 1)))), (some "mu_d"), (some "μ_d"), []⟩,
  -- 414: deuteron.py:29
  ⟨.constant, "deuteron_mass_energy_equivalent", (some (.quantity 9390821 31250000000000000 (.unit 166))), (some "(m_d*c**2)"), (some "(m_d·c²)"), []⟩,
  -- 415: deuteron.py:35
  ⟨.constant, "deuteron_mass_energy_equivalent_in_MeV", (some (.quantity 1875612793 1000000 (.unit 172))), none, none, []⟩,
  -- 416: deuteron.py:39
  ⟨.constant, "deuteron_mass_in_u", (some (.quantity 503388303181 250000000000 (.unit 145))), none, none, []⟩,
  -- 417: deuteron.py:43
  ⟨.constant, "deuteron_molar_mass", (some (.quantity 503388303181 250000000000000 (.mul (.unit 130) (.pow (.unit 88) (-1) 1)))), (some "M_d"), none, []⟩,
  -- 418: deuteron.py:48
  ⟨.constant, "deuteron_electron_mass_ratio", (some (.quantity 18352414827 5000000 (.unit 0))), (some "(m_d/m_e)"), (some "(m_d/mₑ)"), []⟩,
  -- 419: deuteron.py:54
  ⟨.constant, "deuteron_proton_mass_ratio", (some (.quantity 49975187527 25000000000 (.unit 0))), (some "(m_d/m_n)"), none, []⟩,
  -- 420: deuteron.py:59
  ⟨.constant, "deuteron_electron_magnetic_moment_ratio", (some (.quantity (-4664345537) 10000000000000 (.unit 0))), (some "(mu_d/mu_e)"), (some "(μ_d/μₑ)"), []⟩,
  -- 421: deuteron.py:65
  ⟨.constant, "deuteron_magnetic_moment_to_Bohr_magneton_ratio", (some (.quantity 1167438639 2500000000000 (.unit 0))), (some "(mu_d/mu_B)"), (some "(μ_d/μ_B)"), []⟩,
  -- 422: deuteron.py:71
  ⟨.constant, "deuteron_magnetic_moment_to_nuclear_magneton_ratio", (some (.quantity 2143595577 2500000000 (.unit 0))), (some "(mu_d/mu_N)"), (some "(μ_d/μ_N)"), []⟩,
  -- 423: deuteron.py:77
  ⟨.constant, "deuteron_neutron_magnetic_moment_ratio", (some (.quantity (-11205163) 25000000 (.unit 0))), (some "(mu_d/mu_n)"), (some "(μ_d/μ_n)"), []⟩,
  -- 424: deuteron.py:83
  ⟨.constant, "deuteron_proton_magnetic_moment_ratio", (some (.quantity 307012207 1000000000 (.unit 0))), (some "(mu_d/mu_p)"), (some "(μ_d/μ_p)"), []⟩]

/-- `quantities/constants/electromagnetism.py`, rows 425-427 -/
def c_electromagnetism : List Row := [
  -- 425: electromagnetism.py:8
  ⟨.constant, "characteristic_impedance_of_vacuum", (some (.quantity 376730313461 1000000000 (.unit 209))), (some "Z_0"), (some "Z₀"), []⟩,
  -- 426: electromagnetism.py:14
  ⟨.constant, "electric_constant", (some (.quantity 8854187817 1000000000000000000000 (.mul (.unit 203) (.pow (.unit 34) (-1) 1)))), (some "epsilon_0"), (some "ε₀"), []⟩,
  -- 427: electromagnetism.py:20
  ⟨.constant, "magnetic_constant", (some (.quantity 6283185307 5000000000000000 (.mul (.unit 155) (.pow (.unit 186) (-2) 1)))), (some "mu_0"), (some "μ₀"), []⟩]

/-- `quantities/constants/electron.py`, rows 428-476 -/
def c_electron : List Row := [
  -- 428: electron.py:8
  ⟨.constant, "elementary_charge", (some (.quantity 1602176487 10000000000000000000000000000 (.unit 196))), (some "e"), none, []⟩,
  -- 429: electron.py:13
  ⟨.constant, "elementary_charge_over_h", (some (.quantity 241798945400000 1 (.mul (.unit 186) (.pow (.unit 166) (-1) 1)))), (some "e/h"), none, []⟩,
  -- 430: electron.py:18
  ⟨.constant, "Faraday_constant", (some (.quantity 964853399 10000 (.mul (.unit 196) (.pow (.unit 88) (-1) 1)))), (some "F"), none, []⟩,
  -- 431: electron.py:25
  ⟨.constant, "classical_electron_radius", (some (.quantity 14089701447 5000000000000000000000000 (.unit 34))), (some "r_e"), (some "rₑ"), []⟩,
  -- 432: electron.py:31
  ⟨.constant, "electron_mass", (some (.quantity 182187643 200000000000000000000000000000000000000 (.unit 130))), (some "m_e"), (some "mₑ"), []⟩,
  -- 433: electron.py:37
  ⟨.constant, "Compton_wavelength", (some (.quantity 970524087 400000000000000000000 (.unit 34))), (some "lambda_C"), (some "λ_C"), []⟩,
  -- 434: electron.py:43
  ⟨.constant, "Compton_wavelength_over_2_pi", (some (.quantity 38615926459 100000000000000000000000 (.unit 34))), (some "lambdabar_C"), (some "ƛ_C"), []⟩,
  -- 435: electron.py:49
  ⟨.constant, "electron_charge_to_mass_quotient", (some (.quantity (-175882015000) 1 (.mul (.unit 196) (.pow (.unit 130) (-1) 1)))), (some "(-e/m_e)"), (some "(-e/mₑ)"), []⟩,
  -- 436: electron.py:55
  ⟨.constant, "electron_g_factor", (some (.quantity (-10011596521811) 5000000000000 (.unit 0))), (some "g_e"), (some "gₑ"), []⟩,
  -- 437: electron.py:61
  ⟨.constant, "electron_gyromagnetic_ratio", (some (.quantity 176085977000 1 (.mul (.pow (.unit 1) (-1) 1) (.pow (.unit 218) (-1) 1)))), (some "gamma_e"), (some "γₑ"), []⟩,
  -- 438: electron.py:67
  ⟨.constant, "electron_gyromagnetic_ratio_over_2_pi", (some (.quantity 700623841 25000 (.mul (.unit 245) (.pow (.unit 218) (-1) 1)))), (some "gamma_e/(2*pi)"), (some "γₑ/(2·π)"), []⟩,
  -- 439: electron.py:73
  ⟨.constant, "electron_magnetic_moment", (some (.quantity (-928476377) 100000000000000000000000000000000 (.mul (.unit 166) (.pow (.unit 218) (-1) 1)))), (some "mu_e"), (some "μₑ"), []⟩,
  -- 440: electron.py:79
  ⟨.constant, "electron_magnetic_moment_anomaly", (some (.quantity 115965218111 100000000000000 (.unit 0))), (some "a_e"), (some "aₑ"), []⟩,
  -- 441: electron.py:85
  ⟨.constant, "electron_volt", (some (.quantity 1602176487 10000000000000000000000000000 (.unit 166))), (some "eV"), none, []⟩,
  -- 442: electron.py:90
  ⟨.constant, "Thomson_cross_section", (some (.quantity 3326229279 50000000000000000000000000000000000000 (.pow (.unit 34) 2 1))), (some "sigma_e"), (some "σₑ"), []⟩,
  -- 443: electron.py:97
  ⟨.constant, "Bohr_magneton", (some (.quantity 185480183 20000000000000000000000000000000 (.mul (.unit 166) (.pow (.unit 218) (-1) 1)))), (some "mu_B"), (some "μ_B"), []⟩,
  -- 444: electron.py:103
  ⟨.constant, "Bohr_magneton_in_Hz_per_T", (some (.quantity 13996246040 1 (.mul (.unit 243) (.pow (.unit 218) (-1) 1)))), none, none, []⟩,
  -- 445: electron.py:107
  ⟨.constant, "Bohr_magneton_in_inverse_meters_per_tesla", (some (.quantity 93372903 2000000 (.mul (.pow (.unit 34) (-1) 1) (.pow (.unit 218) (-1) 1)))), none, none, []⟩,
  -- 446: electron.py:111
  ⟨.constant, "Bohr_magneton_in_K_per_T", (some (.quantity 6717131 10000000 (.mul (.unit 249) (.pow (.unit 218) (-1) 1)))), none, none, []⟩,
  -- 447: electron.py:116
  ⟨.constant, "electron_mass_energy_equivalent", (some (.quantity 409355219 5000000000000000000000 (.unit 166))), (some "(m_e*c**2)"), (some "(mₑ·c²)"), []⟩,
  -- 448: electron.py:122
  ⟨.constant, "electron_mass_energy_equivalent_in_MeV", (some (.quantity 51099891 100000000 (.unit 172))), none, none, []⟩,
  -- 449: electron.py:126
  ⟨.constant, "electron_mass_in_u", (some (.quantity 54857990943 100000000000000 (.unit 145))), none, none, []⟩,
  -- 450: electron.py:130
  ⟨.constant, "electron_molar_mass", (some (.quantity 54857990943 100000000000000000 (.mul (.unit 130) (.pow (.unit 88) (-1) 1)))), (some "M_e"), (some "Mₑ"), []⟩,
  -- 451: electron.py:137
  ⟨.constant, "electron_deuteron_mass_ratio", (some (.quantity 27244371093 100000000000000 (.unit 0))), (some "(m_e/m_d)"), (some "(mₑ/m_d)"), []⟩,
  -- 452: electron.py:143
  ⟨.constant, "electron_muon_mass_ratio", (some (.quantity 483633171 100000000000 (.unit 0))), (some "(m_e/m_mu)"), (some "(mₑ/m_μ)"), []⟩,
  -- 453: electron.py:149
  ⟨.constant, "electron_neutron_mass_ratio", (some (.quantity 54386734459 100000000000000 (.unit 0))), (some "(m_e/m_n)"), (some "(mₑ/m_n)"), []⟩,
  -- 454: electron.py:155
  ⟨.constant, "electron_proton_mass_ratio", (some (.quantity 54461702177 100000000000000 (.unit 0))), (some "(m_e/m_p)"), (some "(mₑ/m_p)"), []⟩,
  -- 455: electron.py:161
  ⟨.constant, "electron_tau_mass_ratio", (some (.quantity 71891 250000000 (.unit 0))), (some "(m_e/m_tau)"), (some "(mₑ/m_τ)"), []⟩,
  -- 456: electron.py:167
  ⟨.constant, "electron_to_alpha_particle_mass_ratio", (some (.quantity 13709335557 100000000000000 (.unit 0))), (some "(m_e/m_alpha)"), (some "(mₑ/m_α)"), []⟩,
  -- 457: electron.py:174
  ⟨.constant, "electron_deuteron_magnetic_moment_ratio", (some (.quantity (-1071961749) 500000 (.unit 0))), (some "(mu_e/mu_d)"), (some "(μₑ/μ_d)"), []⟩,
  -- 458: electron.py:180
  ⟨.constant, "electron_magnetic_moment_to_Bohr_magneton_ratio", (some (.quantity (-100115965218111) 100000000000000 (.unit 0))), (some "(mu_e/mu_B)"), (some "(μₑ/μ_B)"), []⟩,
  -- 459: electron.py:186
  ⟨.constant, "electron_magnetic_moment_to_nuclear_magneton_ratio", (some (.quantity (-45957049273) 25000000 (.unit 0))), (some "(mu_e/mu_N)"), (some "(μₑ/μ_N)"), []⟩,
  -- 460: electron.py:192
  ⟨.constant, "electron_muon_magnetic_moment_ratio", (some (.quantity 2067669877 10000000 (.unit 0))), (some "(mu_e/mu_mu)"), (some "(μₑ/μ_μ)"), []⟩,
  -- 461: electron.py:198
  ⟨.constant, "electron_neutron_magnetic_moment_ratio", (some (.quantity 1921841 2000 (.unit 0))), (some "(mu_e/mu_n)"), (some "(μₑ/μ_n)"), []⟩,
  -- 462: electron.py:204
  ⟨.constant, "electron_proton_magnetic_moment_ratio", (some (.quantity (-205690839) 312500 (.unit 0))), (some "(mu_e/mu_p)"), (some "(μₑ/μ_p)"), []⟩,
  -- 463: electron.py:210
  ⟨.constant, "electron_to_shielded_helion_magnetic_moment_ratio", (some (.quantity 864058257 1000000 (.unit 0))), (some "(mu_e/muprime_h)"), (some "(μₑ/μ′_h)"), []⟩,
  -- 464: electron.py:216
  ⟨.constant, "electron_to_shielded_proton_magnetic_moment_ratio", (some (.quantity (-6582275971) 10000000 (.unit 0))), (some "(mu_e/muprime_p)"), (some "(μₑ/μ′_p)"), []⟩,
  -- 465: electron.py:224
  ⟨.constant, "electron_volt_atomic_mass_unit_relationship", (some (.quantity 268386047 250000000000000000 (.unit 145))), none, none, []⟩,
  -- 466: electron.py:228
  ⟨.constant, "electron_volt_hartree_relationship", (some (.quantity 183746627 5000000000 (.unit 183))), none, none, []⟩,
  -- 467: electron.py:232
  ⟨.constant, "electron_volt_hertz_relationship", (some (.quantity 241798945400000 1 (.unit 243))), none, none, []⟩,
  -- 468: electron.py:236
  ⟨.constant, "electron_volt_inverse_meter_relationship", (some (.quantity 161310893 200 (.pow (.unit 34) (-1) 1))), none, none, []⟩,
  -- 469: electron.py:240
  ⟨.constant, "electron_volt_joule_relationship", (some (.quantity 1602176487 10000000000000000000000000000 (.unit 166))), none, none, []⟩,
  -- 470: electron.py:244
  ⟨.constant, "electron_volt_kelvin_relationship", (some (.quantity 2320901 200 (.unit 249))), none, none, []⟩,
  -- 471: electron.py:248
  ⟨.constant, "electron_volt_kilogram_relationship", (some (.quantity 891330879 500000000000000000000000000000000000000000000 (.unit 130))), none, none, []⟩,
  -- 472: electron.py:252
  ⟨.constant, "hertz_electron_volt_relationship", (some (.quantity 413566733 100000000000000000000000 (.unit 169))), none, none, []⟩,
  -- 473: electron.py:256
  ⟨.constant, "inverse_meter_electron_volt_relationship", (some (.quantity 1983747 1600000000000 (.unit 169))), none, none, []⟩,
  -- 474: electron.py:260
  ⟨.constant, "joule_electron_volt_relationship", (some (.quantity 6241509650000000000 1 (.unit 169))), none, none, []⟩,
  -- 475: electron.py:264
  ⟨.constant, "kelvin_electron_volt_relationship", (some (.quantity 8617343 100000000000 (.unit 169))), none, none, []⟩,
  -- 476: electron.py:268
  ⟨.constant, "kilogram_electron_volt_relationship", (some (.quantity 560958912000000000000000000000000000 1 (.unit 169))), none, none, []⟩]

/-- `quantities/constants/helion.py`, rows 477-490 -/
def c_helion : List Row := [
  -- 477: helion.py:9
  ⟨.constant, "helion_mass", (some (.quantity 62580149 12500000000000000000000000000000000 (.unit 130))), (some "m_h"), none, []⟩,
  -- 478: helion.py:14
  ⟨.constant, "shielded_helion_gyromagnetic_ratio", (some (.quantity 203789473 1 (.mul (.pow (.unit 1) (-1) 1) (.pow (.unit 218) (-1) 1)))), (some "gammaprime_h"), (some "γ′_h"), []⟩,
  -- 479: helion.py:20
  ⟨.constant, "shielded_helion_gyromagnetic_ratio_over_2_pi", (some (.quantity 1621705099 50000000 (.mul (.unit 245) (.pow (.unit 218) (-1) 1)))), (some "(gammaprime_h/(2*pi))"), (some "(γ′_h/(2·π))"), []⟩,
  -- 480: helion.py:26
  ⟨.constant, "shielded_helion_magnetic_moment", (some (.quantity (-537276491) 50000000000000000000000000000000000 (.mul (.unit 166) (.pow (.unit 218) (-1) 1)))), (some "muprime_h"), (some "μ′_h"), []⟩,
  -- 481: helion.py:32
  ⟨.constant, "helion_mass_energy_equivalent", (some (.quantity 56244233 125000000000000000 (.unit 166))), (some "(m_h*c**2)"), (some "(m_h·c²)"), []⟩,
  -- 482: helion.py:38
  ⟨.constant, "helion_mass_energy_equivalent_in_MeV", (some (.quantity 2808391383 1000000 (.unit 172))), none, none, []⟩,
  -- 483: helion.py:42
  ⟨.constant, "helion_mass_in_u", (some (.quantity 30149322473 10000000000 (.unit 145))), none, none, []⟩,
  -- 484: helion.py:46
  ⟨.constant, "helion_molar_mass", (some (.quantity 30149322473 10000000000000 (.mul (.unit 130) (.pow (.unit 88) (-1) 1)))), (some "M_h"), none, []⟩,
  -- 485: helion.py:51
  ⟨.constant, "helion_electron_mass_ratio", (some (.quantity 10991770553 2000000 (.unit 0))), (some "(m_h/m_e)"), (some "(m_h/mₑ)"), []⟩,
  -- 486: helion.py:57
  ⟨.constant, "helion_proton_mass_ratio", (some (.quantity 29931526713 10000000000 (.unit 0))), (some "(m_h/m_p)"), none, []⟩,
  -- 487: helion.py:63
  ⟨.constant, "shielded_helion_to_proton_magnetic_moment_ratio", (some (.quantity (-380883279) 500000000 (.unit 0))), (some "(muprime_h/mu_p)"), (some "(μ′_h/μ_p)"), []⟩,
  -- 488: helion.py:69
  ⟨.constant, "shielded_helion_magnetic_moment_to_Bohr_magneton_ratio", (some (.quantity (-1158671471) 1000000000000 (.unit 0))), (some "(muprime_h/mu_B)"), (some "(μ′_h/μ_B)"), []⟩,
  -- 489: helion.py:75
  ⟨.constant, "shielded_helion_magnetic_moment_to_nuclear_magneton_ratio", (some (.quantity (-1063748859) 500000000 (.unit 0))), (some "(muprime_h/mu_N)"), (some "(μ′_h/μ_N)"), []⟩,
  -- 490: helion.py:81
  ⟨.constant, "shielded_helion_to_shielded_proton_magnetic_moment_ratio", (some (.quantity (-7617861313) 10000000000 (.unit 0))), (some "(muprime_h/muprime_p)"), (some "(μ′_h/μ′_p)"), []⟩]

/-- `quantities/constants/mathematical.py`, rows 491-492 -/
def c_mathematical : List Row := [
  -- 491: mathematical.py:6
  ⟨.constant, "pi", (some .pi), none, (some "π"), []⟩,
  -- 492: mathematical.py:11
  ⟨.constant, "golden_ratio", (some (.div (.add (.num 1 1) (.pow (.num 5 1) 1 2)) (.num 2 1))), none, (some "ϕ"), ["golden"]⟩]

/-- `quantities/constants/muon.py`, rows 493-509 -/
def c_muon : List Row := [
  -- 493: muon.py:8
  ⟨.constant, "muon_mass", (some (.quantity 18835313 100000000000000000000000000000000000 (.unit 130))), (some "m_mu"), (some "m_μ"), []⟩,
  -- 494: muon.py:14
  ⟨.constant, "muon_Compton_wavelength", (some (.quantity 146680513 12500000000000000000000 (.unit 34))), (some "lambdabar_C_mu"), (some "λ_C_μ"), []⟩,
  -- 495: muon.py:20
  ⟨.constant, "muon_Compton_wavelength_over_2_pi", (some (.quantity 373518859 200000000000000000000000 (.unit 34))), (some "lambdabar_Cmu"), (some "ƛ_C_μ"), []⟩,
  -- 496: muon.py:26
  ⟨.constant, "muon_g_factor", (some (.quantity (-10011659207) 5000000000 (.unit 0))), (some "g_mu"), (some "g_μ"), []⟩,
  -- 497: muon.py:32
  ⟨.constant, "muon_magnetic_moment", (some (.quantity (-224522393) 5000000000000000000000000000000000 (.mul (.unit 166) (.pow (.unit 218) (-1) 1)))), (some "mu_mu"), (some "μ_μ"), []⟩,
  -- 498: muon.py:38
  ⟨.constant, "muon_magnetic_moment_anomaly", (some (.quantity 116592069 100000000000 (.unit 0))), (some "a_mu"), (some "a_μ"), []⟩,
  -- 499: muon.py:44
  ⟨.constant, "muon_mass_energy_equivalent", (some (.quantity 169283351 10000000000000000000 (.unit 166))), (some "(m_mu*c**2)"), (some "(m_μ·c²)"), []⟩,
  -- 500: muon.py:50
  ⟨.constant, "muon_mass_energy_equivalent_in_MeV", (some (.quantity 264145917 2500000 (.unit 172))), none, none, []⟩,
  -- 501: muon.py:54
  ⟨.constant, "muon_mass_in_u", (some (.quantity 141786157 1250000000 (.unit 145))), none, none, []⟩,
  -- 502: muon.py:58
  ⟨.constant, "muon_molar_mass", (some (.quantity 141786157 1250000000000 (.mul (.unit 130) (.pow (.unit 88) (-1) 1)))), (some "M_mu"), (some "M_μ"), []⟩,
  -- 503: muon.py:65
  ⟨.constant, "muon_electron_mass_ratio", (some (.quantity 2067682823 10000000 (.unit 0))), (some "(m_mu/m_e)"), (some "(m_μ/mₑ)"), []⟩,
  -- 504: muon.py:71
  ⟨.constant, "muon_neutron_mass_ratio", (some (.quantity 1124545167 10000000000 (.unit 0))), (some "(m_mu/m_n)"), (some "(m_μ/m_n)"), []⟩,
  -- 505: muon.py:77
  ⟨.constant, "muon_proton_mass_ratio", (some (.quantity 1126095261 10000000000 (.unit 0))), (some "(m_mu/m_p)"), (some "(m_μ/m_p)"), []⟩,
  -- 506: muon.py:83
  ⟨.constant, "muon_tau_mass_ratio", (some (.quantity 18581 312500 (.unit 0))), (some "(m_mu/m_tau)"), (some "(m_μ/m_τ)"), []⟩,
  -- 507: muon.py:90
  ⟨.constant, "muon_magnetic_moment_to_Bohr_magneton_ratio", (some (.quantity (-484197049) 100000000000 (.unit 0))), (some "(mu_mu/mu_B)"), (some "(μ_μ/μ_B)"), []⟩,
  -- 508: muon.py:96
  ⟨.constant, "muon_magnetic_moment_to_nuclear_magneton_ratio", (some (.quantity (-177811941) 20000000 (.unit 0))), (some "(mu_mu/mu_N)"), (some "(μ_μ/μ_N)"), []⟩,
  -- 509: muon.py:102
  ⟨.constant, "muon_proton_magnetic_moment_ratio", (some (.quantity (-3183345137) 1000000000 (.unit 0))), (some "(mu_mu/mu_p)"), (some "(μ_μ/μ_p)"), []⟩]

/-- `quantities/constants/naturalunits.py`, rows 510-519 -/
def c_naturalunits : List Row := [
  -- 510: naturalunits.py:8
  ⟨.constant, "natural_unit_of_action", (some (.quantity 263642907 2500000000000000000000000000000000000000000 (.mul (.unit 166) (.unit 1)))), (some "hbar"), (some "ħ"), []⟩,
  -- 511: naturalunits.py:14
  ⟨.constant, "natural_unit_of_energy", (some (.quantity 409355219 5000000000000000000000 (.unit 166))), (some "(m_e*c**2)"), (some "(mₑ·c²)"), []⟩,
  -- 512: naturalunits.py:20
  ⟨.constant, "natural_unit_of_length", (some (.quantity 38615926459 100000000000000000000000 (.unit 34))), (some "lambdabar_C"), (some "ƛ_C"), []⟩,
  -- 513: naturalunits.py:26
  ⟨.constant, "natural_unit_of_mass", (some (.quantity 182187643 200000000000000000000000000000000000000 (.unit 130))), (some "m_e"), (some "mₑ"), []⟩,
  -- 514: naturalunits.py:32
  ⟨.constant, "natural_unit_of_momentum", (some (.quantity 136546203 500000000000000000000000000000 (.mul (.mul (.unit 130) (.unit 34)) (.pow (.unit 1) (-1) 1)))), (some "(m_e*c)"), (some "(mₑ·c)"), []⟩,
  -- 515: naturalunits.py:38
  ⟨.constant, "natural_unit_of_time", (some (.quantity 1288088657 1000000000000000000000000000000 (.unit 1))), (some "(hbar/(m_e*c**2))"), (some "(ħ/(mₑ·c²))"), []⟩,
  -- 516: naturalunits.py:44
  ⟨.constant, "natural_unit_of_velocity", (some (.quantity 299792458 1 (.mul (.unit 34) (.pow (.unit 1) (-1) 1)))), (some "c"), none, []⟩,
  -- 517: naturalunits.py:50
  ⟨.constant, "natural_unit_of_action_in_eV_s", (some (.quantity 658211899 1000000000000000000000000 (.mul (.unit 169) (.unit 1)))), none, none, []⟩,
  -- 518: naturalunits.py:54
  ⟨.constant, "natural_unit_of_energy_in_MeV", (some (.quantity 51099891 100000000 (.unit 172))), none, none, []⟩,
  -- 519: naturalunits.py:58
  ⟨.constant, "natural_unit_of_momentum_in_MeV_per_c", (some (.quantity 51099891 100000000 (.div (.unit 172) (.unit 184)))), none, none, []⟩]

/-- `quantities/constants/neutron.py`, rows 520-539 -/
def c_neutron : List Row := [
  -- 520: neutron.py:8
  ⟨.constant, "neutron_mass", (some (.quantity 1674927211 1000000000000000000000000000000000000 (.unit 130))), (some "m_n"), none, []⟩,
  -- 521: neutron.py:13
  ⟨.constant, "neutron_Compton_wavelength", (some (.quantity 13195908951 10000000000000000000000000 (.unit 34))), (some "lambda_C_n"), (some "λ_C_n"), []⟩,
  -- 522: neutron.py:19
  ⟨.constant, "neutron_Compton_wavelength_over_2_pi", (some (.quantity 10500970691 50000000000000000000000000 (.unit 34))), (some "lambdabar_C_n"), (some "ƛ_C_n"), []⟩,
  -- 523: neutron.py:25
  ⟨.constant, "neutron_g_factor", (some (.quantity (-76521709) 20000000 (.unit 0))), (some "g_n"), none, []⟩,
  -- 524: neutron.py:30
  ⟨.constant, "neutron_gyromagnetic_ratio", (some (.quantity 183247185 1 (.mul (.pow (.unit 1) (-1) 1) (.pow (.unit 218) (-1) 1)))), (some "gamma_n"), (some "γ_n"), []⟩,
  -- 525: neutron.py:36
  ⟨.constant, "neutron_gyromagnetic_ratio_over_2_pi", (some (.quantity 145823477 5000000 (.mul (.unit 245) (.pow (.unit 218) (-1) 1)))), (some "(gamma_n/(2*pi))"), (some "(γ_n/(2·π))"), []⟩,
  -- 526: neutron.py:42
  ⟨.constant, "neutron_magnetic_moment", (some (.quantity (-96623641) 10000000000000000000000000000000000 (.mul (.unit 166) (.pow (.unit 218) (-1) 1)))), (some "mu_n"), (some "μ_n"), []⟩,
  -- 527: neutron.py:48
  ⟨.constant, "neutron_mass_energy_equivalent", (some (.quantity 301069901 2000000000000000000 (.unit 166))), (some "(m_n*c**2)"), (some "(m_n·c²)"), []⟩,
  -- 528: neutron.py:54
  ⟨.constant, "neutron_mass_energy_equivalent_in_MeV", (some (.quantity 469782673 500000 (.unit 172))), none, none, []⟩,
  -- 529: neutron.py:58
  ⟨.constant, "neutron_mass_in_u", (some (.quantity 100866491597 100000000000 (.unit 145))), none, none, []⟩,
  -- 530: neutron.py:62
  ⟨.constant, "neutron_molar_mass", (some (.quantity 100866491597 100000000000000 (.mul (.unit 130) (.pow (.unit 88) (-1) 1)))), (some "M_n"), none, []⟩,
  -- 531: neutron.py:68
  ⟨.constant, "neutron_electron_mass_ratio", (some (.quantity 3677367321 2000000 (.unit 0))), (some "(m_n/m_e)"), (some "(m_n/mₑ)"), []⟩,
  -- 532: neutron.py:74
  ⟨.constant, "neutron_muon_mass_ratio", (some (.quantity 889248409 100000000 (.unit 0))), (some "(m_n/m_mu)"), (some "(m_n/m_μ)"), []⟩,
  -- 533: neutron.py:80
  ⟨.constant, "neutron_proton_mass_ratio", (some (.quantity 50068920959 50000000000 (.unit 0))), (some "(m_n/m_p)"), (some "(m_n/m_p)"), []⟩,
  -- 534: neutron.py:86
  ⟨.constant, "neutron_tau_mass_ratio", (some (.quantity 26437 50000 (.unit 0))), (some "(m_n/m_tau)"), (some "(m_n/m_τ)"), []⟩,
  -- 535: neutron.py:94
  ⟨.constant, "neutron_electron_magnetic_moment_ratio", (some (.quantity 52033441 50000000000 (.unit 0))), (some "(mu_n/mu_e)"), (some "(μ_n/μₑ)"), []⟩,
  -- 536: neutron.py:100
  ⟨.constant, "neutron_magnetic_moment_to_Bohr_magneton_ratio", (some (.quantity (-104187563) 100000000000 (.unit 0))), (some "(mu_n/mu_B)"), (some "(μ_n/μ_B)"), []⟩,
  -- 537: neutron.py:106
  ⟨.constant, "neutron_magnetic_moment_to_nuclear_magneton_ratio", (some (.quantity (-191304273) 100000000 (.unit 0))), (some "(mu_n/mu_N)"), (some "(μ_n/μ_N)"), []⟩,
  -- 538: neutron.py:112
  ⟨.constant, "neutron_proton_magnetic_moment_ratio", (some (.quantity (-34248967) 50000000 (.unit 0))), (some "(mu_n/mu_p)"), (some "(μ_n/μ_p)"), []⟩,
  -- 539: neutron.py:118
  ⟨.constant, "neutron_to_shielded_proton_magnetic_moment_ratio", (some (.quantity (-34249847) 50000000 (.unit 0))), (some "(mu_n/muprime_p)"), (some "(μ_n/μ′_p)"), []⟩]

/-- `quantities/constants/proton.py`, rows 540-570 -/
def c_proton : List Row := [
  -- 540: proton.py:8
  ⟨.constant, "proton_mass", (some (.quantity 1672621637 1000000000000000000000000000000000000 (.unit 130))), (some "m_p"), none, []⟩,
  -- 541: proton.py:13
  ⟨.constant, "proton_Compton_wavelength", (some (.quantity 6607049223 5000000000000000000000000 (.unit 34))), (some "lambda_C_p"), (some "λ_C_p"), []⟩,
  -- 542: proton.py:19
  ⟨.constant, "proton_Compton_wavelength_over_2_pi", (some (.quantity 21030890861 100000000000000000000000000 (.unit 34))), (some "lambdabar_C_p"), (some "ƛ_C_p"), []⟩,
  -- 543: proton.py:25
  ⟨.constant, "proton_rms_charge_radius", (some (.quantity 137 156250000000000000 (.unit 34))), (some "R_p"), none, []⟩,
  -- 544: proton.py:30
  ⟨.constant, "proton_charge_to_mass_quotient", (some (.quantity 478941696 5 (.mul (.unit 196) (.pow (.unit 130) (-1) 1)))), (some "(e/m_p)"), none, []⟩,
  -- 545: proton.py:35
  ⟨.constant, "proton_g_factor", (some (.quantity 5585694713 1000000000 (.unit 0))), (some "g_p"), none, []⟩,
  -- 546: proton.py:40
  ⟨.constant, "proton_gyromagnetic_ratio", (some (.quantity 2675222099 10 (.mul (.pow (.unit 1) (-1) 1) (.pow (.unit 218) (-1) 1)))), (some "gamma_p"), (some "γ_p"), []⟩,
  -- 547: proton.py:46
  ⟨.constant, "proton_gyromagnetic_ratio_over_2_pi", (some (.quantity 425774821 10000000 (.mul (.unit 245) (.pow (.unit 218) (-1) 1)))), (some "(gamma_p/(2*pi))"), (some "(γ_p/(2·π))"), []⟩,
  -- 548: proton.py:52
  ⟨.constant, "proton_magnetic_moment", (some (.quantity 705303331 50000000000000000000000000000000000 (.mul (.unit 166) (.pow (.unit 218) (-1) 1)))), (some "mu_p"), (some "μ_p"), []⟩,
  -- 549: proton.py:58
  ⟨.constant, "proton_magnetic_shielding_correction", (some (.quantity 12847 500000000 (.unit 0))), (some "sigmaprime_p"), (some "σ′_p"), []⟩,
  -- 550: proton.py:64
  ⟨.constant, "shielded_proton_gyromagnetic_ratio", (some (.quantity 1337576681 5 (.mul (.pow (.unit 1) (-1) 1) (.pow (.unit 218) (-1) 1)))), (some "gammaprime_p"), (some "γ′_p"), []⟩,
  -- 551: proton.py:70
  ⟨.constant, "shielded_proton_gyromagnetic_ratio_over_2_pi", (some (.quantity 425763881 10000000 (.mul (.unit 245) (.pow (.unit 218) (-1) 1)))), (some "(gammaprime_p/(2*pi))"), (some "(γ′_p/(2·π))"), []⟩,
  -- 552: proton.py:76
  ⟨.constant, "shielded_proton_magnetic_moment", (some (.quantity 1410570419 100000000000000000000000000000000000 (.mul (.unit 166) (.pow (.unit 218) (-1) 1)))), (some "muprime_p"), (some "μ′_p"), []⟩,
  -- 553: proton.py:83
  ⟨.constant, "nuclear_magneton", (some (.quantity 126269581 25000000000000000000000000000000000 (.mul (.unit 166) (.pow (.unit 218) (-1) 1)))), (some "mu_N"), (some "μ_N"), []⟩,
  -- 554: proton.py:89
  ⟨.constant, "nuclear_magneton_in_eV_per_T", (some (.quantity 15762256163 500000000000000000 (.mul (.unit 169) (.pow (.unit 218) (-1) 1)))), none, none, []⟩,
  -- 555: proton.py:93
  ⟨.constant, "nuclear_magneton_in_inverse_meters_per_tesla", (some (.quantity 19864247 781250000 (.mul (.pow (.unit 34) (-1) 1) (.pow (.unit 218) (-1) 1)))), none, none, []⟩,
  -- 556: proton.py:97
  ⟨.constant, "nuclear_magneton_in_K_per_T", (some (.quantity 36582637 100000000000 (.mul (.unit 249) (.pow (.unit 218) (-1) 1)))), none, none, []⟩,
  -- 557: proton.py:101
  ⟨.constant, "nuclear_magneton_in_MHz_per_T", (some (.quantity 95282423 12500000 (.mul (.unit 245) (.pow (.unit 218) (-1) 1)))), none, none, []⟩,
  -- 558: proton.py:106
  ⟨.constant, "proton_mass_energy_equivalent", (some (.quantity 1503277359 10000000000000000000 (.unit 166))), (some "(m_p*c**2)"), (some "(m_p·c²)"), []⟩,
  -- 559: proton.py:112
  ⟨.constant, "proton_mass_energy_equivalent_in_MeV", (some (.quantity 938272013 1000000 (.unit 172))), none, none, []⟩,
  -- 560: proton.py:116
  ⟨.constant, "proton_mass_in_u", (some (.quantity 100727646677 100000000000 (.unit 145))), none, none, []⟩,
  -- 561: proton.py:120
  ⟨.constant, "proton_molar_mass", (some (.quantity 100727646677 100000000000000 (.mul (.unit 130) (.pow (.unit 88) (-1) 1)))), (some "M_p"), none, []⟩,
  -- 562: proton.py:126
  ⟨.constant, "proton_electron_mass_ratio", (some (.quantity 183615267247 100000000 (.unit 0))), (some "(m_p/m_e)"), (some "(m_p/mₑ)"), []⟩,
  -- 563: proton.py:132
  ⟨.constant, "proton_muon_mass_ratio", (some (.quantity 888024339 100000000 (.unit 0))), (some "(m_p/m_mu)"), (some "(m_p/m_μ)"), []⟩,
  -- 564: proton.py:138
  ⟨.constant, "proton_neutron_mass_ratio", (some (.quantity 6241396739 6250000000 (.unit 0))), (some "(m_p/m_n)"), none, []⟩,
  -- 565: proton.py:143
  ⟨.constant, "proton_tau_mass_ratio", (some (.quantity 132003 250000 (.unit 0))), (some "(m_p/m_tau)"), (some "(m_p/m_τ)"), []⟩,
  -- 566: proton.py:150
  ⟨.constant, "proton_magnetic_moment_to_Bohr_magneton_ratio", (some (.quantity 1521032209 1000000000000 (.unit 0))), (some "(mu_p/mu_B)"), (some "(μ_p/μ_B)"), []⟩,
  -- 567: proton.py:156
  ⟨.constant, "proton_magnetic_moment_to_nuclear_magneton_ratio", (some (.quantity 698211839 250000000 (.unit 0))), (some "(mu_p/mu_N)"), (some "(μ_p/μ_N)"), []⟩,
  -- 568: proton.py:162
  ⟨.constant, "proton_neutron_magnetic_moment_ratio", (some (.quantity (-72994903) 50000000 (.unit 0))), (some "(mu_p/mu_n)"), (some "(μ_p/μ_n)"), []⟩,
  -- 569: proton.py:168
  ⟨.constant, "shielded_proton_magnetic_moment_to_Bohr_magneton_ratio", (some (.quantity 190124141 125000000000 (.unit 0))), (some "(muprime_p/mu_B)"), (some "(μ′_p/μ_B)"), []⟩,
  -- 570: proton.py:174
  ⟨.constant, "shielded_proton_magnetic_moment_to_nuclear_magneton_ratio", (some (.quantity 1396387799 500000000 (.unit 0))), (some "(muprime_p/mu_N)"), (some "(μ′_p/μ_N)"), []⟩]

/-- `quantities/constants/quantum.py`, rows 571-607 -/
def c_quantum : List Row := [
  -- 571: quantum.py:8
  ⟨.constant, "molar_Planck_constant", (some (.quantity 39903126821 100000000000000000000 (.mul (.mul (.unit 166) (.unit 1)) (.pow (.unit 88) (-1) 1)))), (some "(N_A*h)"), (some "(N_A·h)"), []⟩,
  -- 572: quantum.py:14
  ⟨.constant, "molar_Planck_constant_times_c", (some (.quantity 1495332059 12500000000 (.mul (.mul (.unit 166) (.unit 34)) (.pow (.unit 88) (-1) 1)))), (some "(N_A*h*c)"), (some "(N_A·h·c)"), []⟩,
  -- 573: quantum.py:20
  ⟨.constant, "Planck_constant", (some (.quantity 41412931 62500000000000000000000000000000000000000 (.mul (.unit 166) (.unit 1)))), (some "h"), none, []⟩,
  -- 574: quantum.py:25
  ⟨.constant, "Planck_constant_over_2_pi", (some (.quantity 263642907 2500000000000000000000000000000000000000000 (.mul (.unit 166) (.unit 1)))), (some "(h/(2*pi))"), (some "ħ"), []⟩,
  -- 575: quantum.py:31
  ⟨.constant, "quantum_of_circulation", (some (.quantity 36369475199 100000000000000 (.mul (.pow (.unit 34) 2 1) (.pow (.unit 1) (-1) 1)))), (some "(h/(2*m_e))"), (some "(h/(2·mₑ))"), []⟩,
  -- 576: quantum.py:37
  ⟨.constant, "quantum_of_circulation_times_2", (some (.quantity 11365461 15625000000 (.mul (.pow (.unit 34) 2 1) (.pow (.unit 1) (-1) 1)))), (some "(h/m_e)"), (some "(h/mₑ)"), []⟩,
  -- 577: quantum.py:44
  ⟨.constant, "Planck_length", (some (.quantity 404063 25000000000000000000000000000000000000000 (.unit 34))), (some "l_P"), none, []⟩,
  -- 578: quantum.py:49
  ⟨.constant, "Planck_mass", (some (.quantity 54411 2500000000000 (.unit 130))), (some "m_P"), none, []⟩,
  -- 579: quantum.py:54
  ⟨.constant, "Planck_temperature", (some (.quantity 141678500000000000000000000000000 1 (.unit 249))), (some "T_P"), none, []⟩,
  -- 580: quantum.py:59
  ⟨.constant, "Planck_time", (some (.quantity 134781 2500000000000000000000000000000000000000000000000 (.unit 1))), (some "t_P"), none, []⟩,
  -- 581: quantum.py:65
  ⟨.constant, "Rydberg_constant", (some (.quantity 10973731568527 1000000 (.pow (.unit 34) (-1) 1))), (some "R_infinity"), (some "R_∞"), []⟩,
  -- 582: quantum.py:71
  ⟨.constant, "Rydberg_constant_times_c_in_Hz", (some (.quantity 3289841960361000 1 (.unit 243))), none, none, []⟩,
  -- 583: quantum.py:75
  ⟨.constant, "Rydberg_constant_times_hc_in_eV", (some (.quantity 1360569193 100000000 (.unit 169))), none, none, []⟩,
  -- 584: quantum.py:79
  ⟨.constant, "Rydberg_constant_times_hc_in_J", (some (.quantity 217987197 100000000000000000000000000 (.unit 166))), (some "(R_infinity*h*c)"), (some "(R_∞·h·c)"), []⟩,
  -- 585: quantum.py:86
  ⟨.constant, "conductance_quantum", (some (.quantity 19370229251 250000000000000 (.unit 212))), (some "G_0"), (some "G₀"), []⟩,
  -- 586: quantum.py:92
  ⟨.constant, "conventional_value_of_Josephson_constant", (some (.quantity 483597900000000 1 (.mul (.unit 243) (.pow (.unit 199) (-1) 1)))), none, none, []⟩,
  -- 587: quantum.py:96
  ⟨.constant, "conventional_value_of_von_Klitzing_constant", (some (.quantity 25812807 1000 (.unit 209))), none, none, []⟩,
  -- 588: quantum.py:100
  ⟨.constant, "Fermi_coupling_constant", (some (.quantity 116637 10000000000 (.pow (.unit 173) (-2) 1))), (some "(G_F/(hbar*c)**3)"), (some "(G_F/(ħ·c)³)"), []⟩,
  -- 589: quantum.py:106
  ⟨.constant, "fine_structure_constant", (some (.quantity 570105667 78125000000 (.unit 0))), (some "alpha"), (some "α"), []⟩,
  -- 590: quantum.py:112
  ⟨.constant, "inverse_fine_structure_constant", (some (.quantity 137035999679 1000000000 (.unit 0))), (some "alpha**-1"), (some "α⁻¹"), []⟩,
  -- 591: quantum.py:118
  ⟨.constant, "first_radiation_constant", (some (.quantity 187088559 500000000000000000000000 (.mul (.unit 273) (.pow (.unit 34) 2 1)))), (some "c_1"), (some "c₁"), []⟩,
  -- 592: quantum.py:124
  ⟨.constant, "first_radiation_constant_for_spectral_radiance", (some (.quantity 1191042759 10000000000000000000000000 (.mul (.mul (.unit 273) (.pow (.unit 34) 2 1)) (.pow (.unit 78) (-1) 1)))), (some "c_1L"), (some "c₁_L"), []⟩,
  -- 593: quantum.py:130
  ⟨.constant, "inverse_of_conductance_quantum", (some (.quantity 129064037787 10000000 (.unit 209))), (some "G_0**-1"), (some "G₀⁻¹"), []⟩,
  -- 594: quantum.py:136
  ⟨.constant, "Josephson_constant", (some (.quantity 483597891000000 1 (.mul (.unit 243) (.pow (.unit 199) (-1) 1)))), (some "K_J"), none, []⟩,
  -- 595: quantum.py:141
  ⟨.constant, "magnetic_flux_quantum", (some (.quantity 2067833667 1000000000000000000000000 (.unit 217))), (some "Phi_0"), (some "Φ₀"), []⟩,
  -- 596: quantum.py:147
  ⟨.constant, "Newtonian_constant_of_gravitation_over_h_bar_c", (some (.quantity 670881 100000000000000000000000000000000000000000000 (.pow (.div (.unit 173) (.pow (.unit 184) 2 1)) (-2) 1))), (some "(G/(hbar*c))"), (some "(G/(ħ·c))"), []⟩,
  -- 597: quantum.py:153
  ⟨.constant, "Sackur_Tetrode_constant_ST_100kPa", (some (.quantity (-11517047) 10000000 (.unit 0))), none, none, []⟩,
  -- 598: quantum.py:157
  ⟨.constant, "Sackur_Tetrode_constant_STP", (some (.quantity (-11648677) 10000000 (.unit 0))), none, none, []⟩,
  -- 599: quantum.py:161
  ⟨.constant, "second_radiation_constant", (some (.quantity 1798469 125000000 (.mul (.unit 34) (.unit 249)))), (some "c_2"), (some "c₂"), []⟩,
  -- 600: quantum.py:167
  ⟨.constant, "Stefan_Boltzmann_constant", (some (.quantity 443 7812500000 (.mul (.mul (.unit 273) (.pow (.unit 34) (-2) 1)) (.pow (.unit 249) (-4) 1)))), (some "sigma"), (some "σ"), []⟩,
  -- 601: quantum.py:173
  ⟨.constant, "von_Klitzing_constant", (some (.quantity 25812807557 1000000 (.unit 209))), (some "R_K"), none, []⟩,
  -- 602: quantum.py:178
  ⟨.constant, "Wien_frequency_displacement_law_constant", (some (.quantity 58789330000 1 (.mul (.unit 243) (.pow (.unit 249) (-1) 1)))), (some "bprime"), (some "b′"), []⟩,
  -- 603: quantum.py:184
  ⟨.constant, "Wien_wavelength_displacement_law_constant", (some (.quantity 5795537 2000000000 (.mul (.unit 34) (.unit 249)))), (some "b"), none, []⟩,
  -- 604: quantum.py:190
  ⟨.constant, "Planck_constant_in_eV_s", (some (.quantity 413566733 100000000000000000000000 (.mul (.unit 169) (.unit 1)))), none, none, []⟩,
  -- 605: quantum.py:194
  ⟨.constant, "Planck_constant_over_2_pi_in_eV_s", (some (.quantity 658211899 1000000000000000000000000 (.mul (.unit 169) (.unit 1)))), none, none, []⟩,
  -- 606: quantum.py:198
  ⟨.constant, "Planck_constant_over_2_pi_times_c_in_MeV_fm", (some (.quantity 1973269631 10000000 (.mul (.unit 172) (.unit 43)))), none, none, []⟩,
  -- 607: quantum.py:202
  ⟨.constant, "Planck_mass_energy_equivalent_in_GeV", (some (.quantity 12208920000000000000 1 (.unit 173))), none, none, []⟩]

/-- `quantities/constants/relationships.py`, rows 608-627 -/
def c_relationships : List Row := [
  -- 608: relationships.py:8
  ⟨.constant, "hertz_inverse_meter_relationship", (some (.quantity 3335640951 1000000000000000000 (.pow (.unit 34) (-1) 1))), none, none, []⟩,
  -- 609: relationships.py:12
  ⟨.constant, "hertz_joule_relationship", (some (.quantity 41412931 62500000000000000000000000000000000000000 (.unit 166))), none, none, []⟩,
  -- 610: relationships.py:16
  ⟨.constant, "hertz_kelvin_relationship", (some (.quantity 23996187 500000000000000000 (.unit 249))), none, none, []⟩,
  -- 611: relationships.py:20
  ⟨.constant, "hertz_kilogram_relationship", (some (.quantity 460781 62500000000000000000000000000000000000000000000000000000 (.unit 130))), none, none, []⟩,
  -- 612: relationships.py:24
  ⟨.constant, "inverse_meter_hertz_relationship", (some (.quantity 299792458 1 (.unit 243))), none, none, []⟩,
  -- 613: relationships.py:28
  ⟨.constant, "inverse_meter_joule_relationship", (some (.quantity 1986445501 10000000000000000000000000000000000 (.unit 166))), none, none, []⟩,
  -- 614: relationships.py:32
  ⟨.constant, "inverse_meter_kelvin_relationship", (some (.quantity 1798469 125000000 (.unit 249))), none, none, []⟩,
  -- 615: relationships.py:36
  ⟨.constant, "inverse_meter_kilogram_relationship", (some (.quantity 22102187 10000000000000000000000000000000000000000000000000 (.unit 130))), none, none, []⟩,
  -- 616: relationships.py:40
  ⟨.constant, "joule_hertz_relationship", (some (.quantity 1509190450000000000000000000000000 1 (.unit 243))), none, none, []⟩,
  -- 617: relationships.py:44
  ⟨.constant, "joule_inverse_meter_relationship", (some (.quantity 5034117470000000000000000 1 (.pow (.unit 34) (-1) 1))), none, none, []⟩,
  -- 618: relationships.py:48
  ⟨.constant, "joule_kelvin_relationship", (some (.quantity 72429630000000000000000 1 (.unit 249))), none, none, []⟩,
  -- 619: relationships.py:52
  ⟨.constant, "joule_kilogram_relationship", (some (.quantity 139081257 12500000000000000000000000 (.unit 130))), none, none, []⟩,
  -- 620: relationships.py:56
  ⟨.constant, "kelvin_hertz_relationship", (some (.quantity 20836644000 1 (.unit 243))), none, none, []⟩,
  -- 621: relationships.py:60
  ⟨.constant, "kelvin_inverse_meter_relationship", (some (.quantity 1737589 25000 (.pow (.unit 34) (-1) 1))), none, none, []⟩,
  -- 622: relationships.py:64
  ⟨.constant, "kelvin_joule_relationship", (some (.quantity 1725813 125000000000000000000000000000 (.unit 166))), none, none, []⟩,
  -- 623: relationships.py:68
  ⟨.constant, "kelvin_kilogram_relationship", (some (.quantity 15361807 100000000000000000000000000000000000000000000000 (.unit 130))), none, none, []⟩,
  -- 624: relationships.py:72
  ⟨.constant, "kilogram_hertz_relationship", (some (.quantity 135639273300000000000000000000000000000000000000000 1 (.unit 243))), none, none, []⟩,
  -- 625: relationships.py:76
  ⟨.constant, "kilogram_inverse_meter_relationship", (some (.quantity 452443915000000000000000000000000000000000 1 (.pow (.unit 34) (-1) 1))), none, none, []⟩,
  -- 626: relationships.py:80
  ⟨.constant, "kilogram_joule_relationship", (some (.quantity 89875517870000000 1 (.unit 166))), none, none, []⟩,
  -- 627: relationships.py:84
  ⟨.constant, "kilogram_kelvin_relationship", (some (.quantity 6509651000000000000000000000000000000000 1 (.unit 249))), none, none, []⟩]

/-- `quantities/constants/statisticalmechanics.py`, rows 628-638 -/
def c_statisticalmechanics : List Row := [
  -- 628: statisticalmechanics.py:8
  ⟨.constant, "Avogadro_constant", (some (.quantity 602214179000000000000000 1 (.pow (.unit 88) (-1) 1))), (some "N_A"), none, []⟩,
  -- 629: statisticalmechanics.py:13
  ⟨.constant, "Loschmidt_constant", (some (.quantity 26867774000000000000000000 1 (.pow (.unit 34) (-3) 1))), (some "n_0"), (some "n₀"), []⟩,
  -- 630: statisticalmechanics.py:19
  ⟨.constant, "molar_gas_constant", (some (.quantity 1039309 125000 (.mul (.mul (.unit 166) (.pow (.unit 88) (-1) 1)) (.pow (.unit 249) (-1) 1)))), (some "R"), none, []⟩,
  -- 631: statisticalmechanics.py:25
  ⟨.constant, "Boltzmann_constant", (some (.quantity 1725813 125000000000000000000000000000 (.mul (.unit 166) (.pow (.unit 249) (-1) 1)))), (some "k"), none, []⟩,
  -- 632: statisticalmechanics.py:30
  ⟨.constant, "Boltzmann_constant_in_eV_per_K", (some (.quantity 8617343 100000000000 (.mul (.unit 169) (.pow (.unit 249) (-1) 1)))), none, none, []⟩,
  -- 633: statisticalmechanics.py:34
  ⟨.constant, "Boltzmann_constant_in_Hz_per_K", (some (.quantity 20836644000 1 (.mul (.unit 243) (.pow (.unit 249) (-1) 1)))), none, none, []⟩,
  -- 634: statisticalmechanics.py:38
  ⟨.constant, "Boltzmann_constant_in_inverse_meters_per_kelvin", (some (.quantity 1737589 25000 (.mul (.pow (.unit 34) (-1) 1) (.pow (.unit 249) (-1) 1)))), none, none, []⟩,
  -- 635: statisticalmechanics.py:43
  ⟨.constant, "molar_mass_constant", (some (.quantity 1 1000 (.mul (.unit 130) (.pow (.unit 88) (-1) 1)))), (some "M_u"), (some "Mᵤ"), []⟩,
  -- 636: statisticalmechanics.py:49
  ⟨.constant, "molar_volume_of_ideal_gas_ST_100kPa", (some (.quantity 22710981 1000000000 (.mul (.pow (.unit 34) 3 1) (.pow (.unit 88) (-1) 1)))), none, none, []⟩,
  -- 637: statisticalmechanics.py:53
  ⟨.constant, "molar_volume_of_ideal_gas_STP", (some (.quantity 5603499 250000000 (.mul (.pow (.unit 34) 3 1) (.pow (.unit 88) (-1) 1)))), none, none, []⟩,
  -- 638: statisticalmechanics.py:57
  ⟨.constant, "molar_volume_of_silicon", (some (.quantity 120588349 10000000000000 (.mul (.pow (.unit 34) 3 1) (.pow (.unit 88) (-1) 1)))), none, none, []⟩]

/-- `quantities/constants/tau.py`, rows 639-649 -/
def c_tau : List Row := [
  -- 639: tau.py:8
  ⟨.constant, "tau_mass", (some (.quantity 316777 100000000000000000000000000000000 (.unit 130))), (some "m_tau"), (some "m_τ"), []⟩,
  -- 640: tau.py:14
  ⟨.constant, "tau_Compton_wavelength", (some (.quantity 17443 25000000000000000000 (.unit 34))), (some "lambda_C_tau"), (some "λ_C_τ"), []⟩,
  -- 641: tau.py:20
  ⟨.constant, "tau_Compton_wavelength_over_2_pi", (some (.quantity 55523 500000000000000000000 (.unit 34))), (some "lambda_C_tau"), (some "ƛ_C_τ"), []⟩,
  -- 642: tau.py:26
  ⟨.constant, "tau_mass_energy_equivalent", (some (.quantity 56941 200000000000000 (.unit 166))), (some "(m_tau*c**2)"), (some "(m_τ·c²)"), []⟩,
  -- 643: tau.py:32
  ⟨.constant, "tau_mass_energy_equivalent_in_MeV", (some (.quantity 177699 100 (.unit 172))), none, none, []⟩,
  -- 644: tau.py:36
  ⟨.constant, "tau_mass_in_u", (some (.quantity 11923 6250 (.unit 145))), none, none, []⟩,
  -- 645: tau.py:40
  ⟨.constant, "tau_molar_mass", (some (.quantity 11923 6250000 (.mul (.unit 130) (.pow (.unit 88) (-1) 1)))), (some "M_tau"), (some "M_τ"), []⟩,
  -- 646: tau.py:47
  ⟨.constant, "tau_electron_mass_ratio", (some (.quantity 86937 25 (.unit 0))), (some "(m_tau/m_e)"), (some "(m_τ/mₑ)"), []⟩,
  -- 647: tau.py:53
  ⟨.constant, "tau_muon_mass_ratio", (some (.quantity 168183 10000 (.unit 0))), (some "(m_tau/m_mu)"), (some "(m_τ/m_μ)"), []⟩,
  -- 648: tau.py:59
  ⟨.constant, "tau_neutron_mass_ratio", (some (.quantity 189129 100000 (.unit 0))), (some "(m_tau/m_n)"), (some "(m_τ/m_n)"), []⟩,
  -- 649: tau.py:65
  ⟨.constant, "tau_proton_mass_ratio", (some (.quantity 18939 10000 (.unit 0))), (some "(m_tau/m_p)"), (some "(m_τ/m_p)"), []⟩]

/-- `quantities/constants/triton.py`, rows 650-663 -/
def c_triton : List Row := [
  -- 650: triton.py:8
  ⟨.constant, "triton_mass", (some (.quantity 125183897 25000000000000000000000000000000000 (.unit 130))), (some "m_t"), none, []⟩,
  -- 651: triton.py:13
  ⟨.constant, "triton_g_factor", (some (.quantity 186185153 31250000 (.unit 0))), (some "g_t"), none, []⟩,
  -- 652: triton.py:18
  ⟨.constant, "triton_magnetic_moment", (some (.quantity 1504609361 100000000000000000000000000000000000 (.mul (.unit 166) (.pow (.unit 218) (-1) 1)))), (some "mu_t"), (some "μ_t"), []⟩,
  -- 653: triton.py:24
  ⟨.constant, "triton_mass_energy_equivalent", (some (.quantity 450038703 1000000000000000000 (.unit 166))), (some "(m_t*c**2)"), (some "(m_t·c²)"), []⟩,
  -- 654: triton.py:30
  ⟨.constant, "triton_mass_energy_equivalent_in_MeV", (some (.quantity 1404460453 500000 (.unit 172))), none, none, []⟩,
  -- 655: triton.py:34
  ⟨.constant, "triton_mass_in_u", (some (.quantity 15077503567 5000000000 (.unit 145))), none, none, []⟩,
  -- 656: triton.py:38
  ⟨.constant, "triton_molar_mass", (some (.quantity 15077503567 5000000000000 (.mul (.unit 130) (.pow (.unit 88) (-1) 1)))), (some "M_t"), none, []⟩,
  -- 657: triton.py:44
  ⟨.constant, "triton_electron_mass_ratio", (some (.quantity 54969215269 10000000 (.unit 0))), (some "(m_t/m_e)"), (some "(m_t/mₑ)"), []⟩,
  -- 658: triton.py:50
  ⟨.constant, "triton_proton_mass_ratio", (some (.quantity 29937170309 10000000000 (.unit 0))), (some "(m_t/m_p)"), (some "(m_t/m_p)"), []⟩,
  -- 659: triton.py:57
  ⟨.constant, "triton_electron_magnetic_moment_ratio", (some (.quantity (-1620514423) 1000000000000 (.unit 0))), (some "(mu_t/mu_e)"), (some "(μ_t/μₑ)"), []⟩,
  -- 660: triton.py:63
  ⟨.constant, "triton_magnetic_moment_to_Bohr_magneton_ratio", (some (.quantity 1622393657 1000000000000 (.unit 0))), (some "(mu_t/mu_B)"), (some "(μ_t/μ_B)"), []⟩,
  -- 661: triton.py:69
  ⟨.constant, "triton_magnetic_moment_to_nuclear_magneton_ratio", (some (.quantity 186185153 62500000 (.unit 0))), (some "(mu_t/mu_N)"), (some "(μ_t/μ_N)"), []⟩,
  -- 662: triton.py:75
  ⟨.constant, "triton_neutron_magnetic_moment_ratio", (some (.quantity (-155718553) 100000000 (.unit 0))), (some "(mu_t/mu_n)"), (some "(μ_t/μ_n)"), []⟩,
  -- 663: triton.py:81
  ⟨.constant, "triton_proton_magnetic_moment_ratio", (some (.quantity 266659977 250000000 (.unit 0))), (some "(mu_t/mu_p)"), (some "(μ_t/μ_p)"), []⟩]

/-- `quantities/constants/weak.py`, rows 664-664 -/
def c_weak : List Row := [
  -- 664: weak.py:8
  ⟨.constant, "weak_mixing_angle", (some (.quantity 4451 20000 (.unit 0))), none, none, []⟩]

/-- `quantities/constants/xray.py`, rows 665-669 -/
def c_xray : List Row := [
  -- 665: xray.py:8
  ⟨.constant, "Angstrom_star", (some (.quantity 50000749 500000000000000000 (.unit 34))), (some "A*"), (some "Å*"), []⟩,
  -- 666: xray.py:14
  ⟨.constant, "silicon_220_lattice_spacing", (some (.quantity 960077881 5000000000000000000 (.unit 34))), (some "d_220"), (some "d₂₂₀"), []⟩,
  -- 667: xray.py:20
  ⟨.constant, "Cu_x_unit", (some (.quantity 100207699 1000000000000000000000 (.unit 34))), (some "CuKalpha_1"), (some "CuKα₁"), []⟩,
  -- 668: xray.py:26
  ⟨.constant, "lattice_parameter_of_silicon", (some (.quantity 33943879 62500000000000000 (.unit 34))), none, none, []⟩,
  -- 669: xray.py:30
  ⟨.constant, "Mo_x_unit", (some (.quantity 20041991 200000000000000000000 (.unit 34))), (some "MoKalpha_1"), (some "MoKα₁"), []⟩]

/-- The units, in order of execution. -/
def unitTable : List Row :=
  t_unitquantity ++
  t_time ++
  t_length ++
  t_acceleration ++
  t_angle ++
  t_area ++
  t_compound ++
  t_substance ++
  t_volume ++
  t_concentration ++
  t_dimensionless ++
  t_mass ++
  t_force ++
  t_energy ++
  t_velocity ++
  t_electromagnetism ++
  t_frequency ++
  t_temperature ++
  t_power ++
  t_heat ++
  t_information ++
  t_pressure ++
  t_radiation ++
  t_viscosity

/-- The constants, in order of execution. -/
def constTable : List Row :=
  c_alpha ++
  c_astronomy ++
  c_atomicunits ++
  c_deuteron ++
  c_electromagnetism ++
  c_electron ++
  c_helion ++
  c_mathematical ++
  c_muon ++
  c_naturalunits ++
  c_neutron ++
  c_proton ++
  c_quantum ++
  c_relationships ++
  c_statisticalmechanics ++
  c_tau ++
  c_triton ++
  c_weak ++
  c_xray

/-- All rows, in order of execution. -/
def table : List Row := unitTable ++ constTable

/-! Auxiliary data for checking the table: code points of the labels and keys; twice the exponents of each
row in the base units (rows [1, 34, 88, 130, 186, 242, 249, 286]: second, meter, mole, kilogram, ampere, candela, Kelvin, bit). -/

/-- Rows of the units without definition. -/
def baseRows : List Nat := [1, 34, 88, 130, 186, 242, 249, 286]

/-- code points of the labels -/
def l_t_unitquantity : List (List Nat) := [[100, 105, 109, 101, 110, 115, 105, 111, 110, 108, 101, 115, 115]]
/-- class number and code points of the name -/
def k_t_unitquantity : List (Nat × List Nat) := [(11, [100, 105, 109, 101, 110, 115, 105, 111, 110, 108, 101, 115, 115])]
/-- twice the exponents in the base units -/
def d_t_unitquantity : List (List Int) := [
  [0, 0, 0, 0, 0, 0, 0, 0]]

/-- code points of the labels -/
def l_t_time : List (List Nat) := [[115, 101, 99, 111, 110, 100], [115], [115, 101, 99], [115, 101, 99, 111, 110, 100, 115], [107, 105, 108, 111, 115, 101, 99, 111, 110, 100], [107, 115], [107, 105, 108, 111, 115, 101, 99, 111, 110, 100, 115], [109, 101, 103, 97, 115, 101, 99, 111, 110, 100], [77, 115], [109, 101, 103, 97, 115, 101, 99, 111, 110, 100, 115], [109, 105, 108, 108, 105, 115, 101, 99, 111, 110, 100], [109, 115], [109, 105, 108, 108, 105, 115, 101, 99, 111, 110, 100, 115], [109, 105, 99, 114, 111, 115, 101, 99, 111, 110, 100], [117, 115], [109, 105, 99, 114, 111, 115, 101, 99, 111, 110, 100, 115], [110, 97, 110, 111, 115, 101, 99, 111, 110, 100], [110, 115], [110, 97, 110, 111, 115, 101, 99, 111, 110, 100, 115], [112, 105, 99, 111, 115, 101, 99, 111, 110, 100], [112, 115], [112, 105, 99, 111, 115, 101, 99, 111, 110, 100, 115], [102, 101, 109, 116, 111, 115, 101, 99, 111, 110, 100], [102, 115], [102, 101, 109, 116, 111, 115, 101, 99, 111, 110, 100, 115], [97, 116, 116, 111, 115, 101, 99, 111, 110, 100], [97, 115], [97, 116, 116, 111, 115, 101, 99, 111, 110, 100, 115], [109, 105, 110, 117, 116, 101], [109, 105, 110], [109, 105, 110, 117, 116, 101, 115], [104, 111, 117, 114], [104], [104, 114], [104, 111, 117, 114, 115], [100, 97, 121], [100], [100, 97, 121, 115], [119, 101, 101, 107], [119, 101, 101, 107, 115], [102, 111, 114, 116, 110, 105, 103, 104, 116], [102, 111, 114, 116, 110, 105, 103, 104, 116, 115], [121, 101, 97, 114], [121, 114], [97], [121, 101, 97, 114, 115], [116, 114, 111, 112, 105, 99, 97, 108, 95, 121, 101, 97, 114], [116, 114, 111, 112, 105, 99, 97, 108, 95, 121, 101, 97, 114, 115], [109, 111, 110, 116, 104], [109, 111, 110, 116, 104, 115], [115, 104, 97, 107, 101], [115, 104, 97, 107, 101, 115], [115, 105, 100, 101, 114, 101, 97, 108, 95, 100, 97, 121], [115, 105, 100, 101, 114, 101, 97, 108, 95, 100, 97, 121, 115], [115, 105, 100, 101, 114, 101, 97, 108, 95, 104, 111, 117, 114], [115, 105, 100, 101, 114, 101, 97, 108, 95, 104, 111, 117, 114, 115], [115, 105, 100, 101, 114, 101, 97, 108, 95, 109, 105, 110, 117, 116, 101], [115, 105, 100, 101, 114, 101, 97, 108, 95, 109, 105, 110, 117, 116, 101, 115], [115, 105, 100, 101, 114, 101, 97, 108, 95, 115, 101, 99, 111, 110, 100], [115, 105, 100, 101, 114, 101, 97, 108, 95, 115, 101, 99, 111, 110, 100, 115], [115, 105, 100, 101, 114, 101, 97, 108, 95, 121, 101, 97, 114], [115, 105, 100, 101, 114, 101, 97, 108, 95, 121, 101, 97, 114, 115], [115, 105, 100, 101, 114, 101, 97, 108, 95, 109, 111, 110, 116, 104], [115, 105, 100, 101, 114, 101, 97, 108, 95, 109, 111, 110, 116, 104, 115], [116, 114, 111, 112, 105, 99, 97, 108, 95, 109, 111, 110, 116, 104], [116, 114, 111, 112, 105, 99, 97, 108, 95, 109, 111, 110, 116, 104, 115], [115, 121, 110, 111, 100, 105, 99, 95, 109, 111, 110, 116, 104], [115, 121, 110, 111, 100, 105, 99, 95, 109, 111, 110, 116, 104, 115], [108, 117, 110, 97, 114, 95, 109, 111, 110, 116, 104], [108, 117, 110, 97, 114, 95, 109, 111, 110, 116, 104, 115], [99, 111, 109, 109, 111, 110, 95, 121, 101, 97, 114], [99, 111, 109, 109, 111, 110, 95, 121, 101, 97, 114, 115], [108, 101, 97, 112, 95, 121, 101, 97, 114], [108, 101, 97, 112, 95, 121, 101, 97, 114, 115], [74, 117, 108, 105, 97, 110, 95, 121, 101, 97, 114], [74, 117, 108, 105, 97, 110, 95, 121, 101, 97, 114, 115], [71, 114, 101, 103, 111, 114, 105, 97, 110, 95, 121, 101, 97, 114], [71, 114, 101, 103, 111, 114, 105, 97, 110, 95, 121, 101, 97, 114, 115], [109, 105, 108, 108, 101, 110, 105, 117, 109], [109, 105, 108, 108, 101, 110, 105, 97], [101, 111, 110], [101, 111, 110, 115], [119, 111, 114, 107, 95, 121, 101, 97, 114], [119, 111, 114, 107, 95, 121, 101, 97, 114, 115], [119, 111, 114, 107, 95, 109, 111, 110, 116, 104], [119, 111, 114, 107, 95, 109, 111, 110, 116, 104, 115]]
/-- class number and code points of the name -/
def k_t_time : List (Nat × List Nat) := [(3, [115, 101, 99, 111, 110, 100]), (3, [107, 105, 108, 111, 115, 101, 99, 111, 110, 100]), (3, [109, 101, 103, 97, 115, 101, 99, 111, 110, 100]), (3, [109, 105, 108, 108, 105, 115, 101, 99, 111, 110, 100]), (3, [109, 105, 99, 114, 111, 115, 101, 99, 111, 110, 100]), (3, [110, 97, 110, 111, 115, 101, 99, 111, 110, 100]), (3, [112, 105, 99, 111, 115, 101, 99, 111, 110, 100]), (3, [102, 101, 109, 116, 111, 115, 101, 99, 111, 110, 100]), (3, [97, 116, 116, 111, 115, 101, 99, 111, 110, 100]), (3, [109, 105, 110, 117, 116, 101]), (3, [104, 111, 117, 114]), (3, [100, 97, 121]), (3, [119, 101, 101, 107]), (3, [102, 111, 114, 116, 110, 105, 103, 104, 116]), (3, [121, 101, 97, 114]), (3, [109, 111, 110, 116, 104]), (3, [115, 104, 97, 107, 101]), (3, [115, 105, 100, 101, 114, 101, 97, 108, 95, 100, 97, 121]), (3, [115, 105, 100, 101, 114, 101, 97, 108, 95, 104, 111, 117, 114]), (3, [115, 105, 100, 101, 114, 101, 97, 108, 95, 109, 105, 110, 117, 116, 101]), (3, [115, 105, 100, 101, 114, 101, 97, 108, 95, 115, 101, 99, 111, 110, 100]), (3, [115, 105, 100, 101, 114, 101, 97, 108, 95, 121, 101, 97, 114]), (3, [115, 105, 100, 101, 114, 101, 97, 108, 95, 109, 111, 110, 116, 104]), (3, [116, 114, 111, 112, 105, 99, 97, 108, 95, 109, 111, 110, 116, 104]), (3, [115, 121, 110, 111, 100, 105, 99, 95, 109, 111, 110, 116, 104]), (3, [99, 111, 109, 109, 111, 110, 95, 121, 101, 97, 114]), (3, [108, 101, 97, 112, 95, 121, 101, 97, 114]), (3, [74, 117, 108, 105, 97, 110, 95, 121, 101, 97, 114]), (3, [71, 114, 101, 103, 111, 114, 105, 97, 110, 95, 121, 101, 97, 114]), (3, [109, 105, 108, 108, 101, 110, 105, 117, 109]), (3, [101, 111, 110]), (0, [119, 111, 114, 107, 95, 121, 101, 97, 114]), (0, [119, 111, 114, 107, 95, 109, 111, 110, 116, 104])]
/-- twice the exponents in the base units -/
def d_t_time : List (List Int) := [
  [2, 0, 0, 0, 0, 0, 0, 0],
  [2, 0, 0, 0, 0, 0, 0, 0],
  [2, 0, 0, 0, 0, 0, 0, 0],
  [2, 0, 0, 0, 0, 0, 0, 0],
  [2, 0, 0, 0, 0, 0, 0, 0],
  [2, 0, 0, 0, 0, 0, 0, 0],
  [2, 0, 0, 0, 0, 0, 0, 0],
  [2, 0, 0, 0, 0, 0, 0, 0],
  [2, 0, 0, 0, 0, 0, 0, 0],
  [2, 0, 0, 0, 0, 0, 0, 0],
  [2, 0, 0, 0, 0, 0, 0, 0],
  [2, 0, 0, 0, 0, 0, 0, 0],
  [2, 0, 0, 0, 0, 0, 0, 0],
  [2, 0, 0, 0, 0, 0, 0, 0],
  [2, 0, 0, 0, 0, 0, 0, 0],
  [2, 0, 0, 0, 0, 0, 0, 0],
  [2, 0, 0, 0, 0, 0, 0, 0],
  [2, 0, 0, 0, 0, 0, 0, 0],
  [2, 0, 0, 0, 0, 0, 0, 0],
  [2, 0, 0, 0, 0, 0, 0, 0],
  [2, 0, 0, 0, 0, 0, 0, 0],
  [2, 0, 0, 0, 0, 0, 0, 0],
  [2, 0, 0, 0, 0, 0, 0, 0],
  [2, 0, 0, 0, 0, 0, 0, 0],
  [2, 0, 0, 0, 0, 0, 0, 0],
  [2, 0, 0, 0, 0, 0, 0, 0],
  [2, 0, 0, 0, 0, 0, 0, 0],
  [2, 0, 0, 0, 0, 0, 0, 0],
  [2, 0, 0, 0, 0, 0, 0, 0],
  [2, 0, 0, 0, 0, 0, 0, 0],
  [2, 0, 0, 0, 0, 0, 0, 0],
  [2, 0, 0, 0, 0, 0, 0, 0],
  [2, 0, 0, 0, 0, 0, 0, 0]]

/-- code points of the labels -/
def l_t_length : List (List Nat) := [[109, 101, 116, 101, 114], [109], [109, 101, 116, 101, 114, 115], [109, 101, 116, 114, 101], [109, 101, 116, 114, 101, 115], [107, 105, 108, 111, 109, 101, 116, 101, 114], [107, 109], [107, 105, 108, 111, 109, 101, 116, 101, 114, 115], [107, 105, 108, 111, 109, 101, 116, 114, 101], [107, 105, 108, 111, 109, 101, 116, 114, 101, 115], [100, 101, 99, 105, 109, 101, 116, 101, 114], [100, 109], [100, 101, 99, 105, 109, 101, 116, 101, 114, 115], [100, 101, 99, 105, 109, 101, 116, 114, 101], [100, 101, 99, 105, 109, 101, 116, 114, 101, 115], [99, 101, 110, 116, 105, 109, 101, 116, 101, 114], [99, 109], [99, 101, 110, 116, 105, 109, 101, 116, 101, 114, 115], [99, 101, 110, 116, 105, 109, 101, 116, 114, 101], [99, 101, 110, 116, 105, 109, 101, 116, 114, 101, 115], [109, 105, 108, 108, 105, 109, 101, 116, 101, 114], [109, 109], [109, 105, 108, 108, 105, 109, 101, 116, 101, 114, 115], [109, 105, 108, 108, 105, 109, 101, 116, 114, 101], [109, 105, 108, 108, 105, 109, 101, 116, 114, 101, 115], [109, 105, 99, 114, 111, 109, 101, 116, 101, 114], [117, 109], [109, 105, 99, 114, 111, 110], [109, 105, 99, 114, 111, 110, 115], [109, 105, 99, 114, 111, 109, 101, 116, 101, 114, 115], [109, 105, 99, 114, 111, 109, 101, 116, 114, 101], [109, 105, 99, 114, 111, 109, 101, 116, 114, 101, 115], [110, 97, 110, 111, 109, 101, 116, 101, 114], [110, 109], [110, 97, 110, 111, 109, 101, 116, 101, 114, 115], [110, 97, 110, 111, 109, 101, 116, 114, 101], [110, 97, 110, 111, 109, 101, 116, 114, 101, 115], [112, 105, 99, 111, 109, 101, 116, 101, 114], [112, 109], [112, 105, 99, 111, 109, 101, 116, 101, 114, 115], [112, 105, 99, 111, 109, 101, 116, 114, 101], [112, 105, 99, 111, 109, 101, 116, 114, 101, 115], [97, 110, 103, 115, 116, 114, 111, 109], [97, 110, 103, 115, 116, 114, 111, 109, 115], [102, 101, 109, 116, 111, 109, 101, 116, 101, 114], [102, 109], [102, 101, 109, 116, 111, 109, 101, 116, 101, 114, 115], [102, 101, 109, 116, 111, 109, 101, 116, 114, 101], [102, 101, 109, 116, 111, 109, 101, 116, 114, 101, 115], [102, 101, 114, 109, 105], [102, 101, 114, 109, 105, 115], [105, 110, 99, 104], [105, 110], [105, 110, 99, 104, 101, 115], [105, 110, 116, 101, 114, 110, 97, 116, 105, 111, 110, 97, 108, 95, 105, 110, 99, 104], [105, 110, 116, 101, 114, 110, 97, 116, 105, 111, 110, 97, 108, 95, 105, 110, 99, 104, 101, 115], [102, 111, 111, 116], [102, 116], [102, 101, 101, 116], [105, 110, 116, 101, 114, 110, 97, 116, 105, 111, 110, 97, 108, 95, 102, 111, 111, 116, 105, 110, 116, 101, 114, 110, 97, 116, 105, 111, 110, 97, 108, 95, 102, 101, 101, 116], [109, 105, 108, 101], [109, 105], [109, 105, 108, 101, 115], [105, 110, 116, 101, 114, 110, 97, 116, 105, 111, 110, 97, 108, 95, 109, 105, 108, 101], [105, 110, 116, 101, 114, 110, 97, 116, 105, 111, 110, 97, 108, 95, 109, 105, 108, 101, 115], [121, 97, 114, 100], [121, 100], [121, 97, 114, 100, 115], [105, 110, 116, 101, 114, 110, 97, 116, 105, 111, 110, 97, 108, 95, 121, 97, 114, 100], [105, 110, 116, 101, 114, 110, 97, 116, 105, 111, 110, 97, 108, 95, 121, 97, 114, 100, 115], [109, 105, 108], [109, 105, 108, 115], [116, 104, 111, 117], [116, 104, 111, 117, 115], [112, 97, 114, 115, 101, 99], [112, 99], [112, 97, 114, 115, 101, 99, 115], [108, 105, 103, 104, 116, 95, 121, 101, 97, 114], [108, 121], [108, 105, 103, 104, 116, 95, 121, 101, 97, 114, 115], [97, 115, 116, 114, 111, 110, 111, 109, 105, 99, 97, 108, 95, 117, 110, 105, 116], [97, 117], [97, 115, 116, 114, 111, 110, 111, 109, 105, 99, 97, 108, 95, 117, 110, 105, 116, 115], [110, 97, 117, 116, 105, 99, 97, 108, 95, 109, 105, 108, 101], [110, 109, 105], [110, 109, 105, 108, 101], [110, 109, 105, 108, 101, 115], [110, 97, 117, 116, 105, 99, 97, 108, 95, 109, 105, 108, 101, 115], [112, 114, 105, 110, 116, 101, 114, 115, 95, 112, 111, 105, 110, 116], [112, 111, 105, 110, 116], [112, 114, 105, 110, 116, 101, 114, 115, 95, 112, 111, 105, 110, 116, 115], [112, 111, 105, 110, 116, 115], [112, 105, 99, 97], [112, 105, 99, 97, 115], [112, 114, 105, 110, 116, 101, 114, 115, 95, 112, 105, 99, 97], [112, 114, 105, 110, 116, 101, 114, 115, 95, 112, 105, 99, 97, 115], [85, 83, 95, 115, 117, 114, 118, 101, 121, 95, 102, 111, 111, 116], [85, 83, 95, 115, 117, 114, 118, 101, 121, 95, 102, 101, 101, 116], [85, 83, 95, 115, 117, 114, 118, 101, 121, 95, 121, 97, 114, 100], [85, 83, 95, 115, 117, 114, 118, 101, 121, 95, 121, 97, 114, 100, 115], [85, 83, 95, 115, 117, 114, 118, 101, 121, 95, 109, 105, 108, 101], [85, 83, 95, 115, 117, 114, 118, 101, 121, 95, 109, 105, 108, 101, 115], [85, 83, 95, 115, 116, 97, 116, 117, 116, 101, 95, 109, 105, 108, 101], [85, 83, 95, 115, 116, 97, 116, 117, 116, 101, 95, 109, 105, 108, 101, 115], [114, 111, 100], [114, 111, 100, 115], [112, 111, 108, 101], [112, 111, 108, 101, 115], [112, 101, 114, 99, 104], [112, 101, 114, 99, 104, 101, 115], [102, 117, 114, 108, 111, 110, 103], [102, 117, 114, 108, 111, 110, 103, 115], [102, 97, 116, 104, 111, 109], [102, 97, 116, 104, 111, 109, 115], [99, 104, 97, 105, 110], [99, 104, 97, 105, 110, 115], [98, 97, 114, 108, 101, 121, 99, 111, 114, 110], [98, 97, 114, 108, 101, 121, 99, 111, 114, 110, 115], [97, 114, 112, 101, 110, 116, 108, 105, 110], [107, 97, 121, 115, 101, 114], [107, 97, 121, 115, 101, 114, 115], [119, 97, 118, 101, 110, 117, 109, 98, 101, 114], [119, 97, 118, 101, 110, 117, 109, 98, 101, 114, 115]]
/-- class number and code points of the name -/
def k_t_length : List (Nat × List Nat) := [(2, [109, 101, 116, 101, 114]), (2, [107, 105, 108, 111, 109, 101, 116, 101, 114]), (2, [100, 101, 99, 105, 109, 101, 116, 101, 114]), (2, [99, 101, 110, 116, 105, 109, 101, 116, 101, 114]), (2, [109, 105, 108, 108, 105, 109, 101, 116, 101, 114]), (2, [109, 105, 99, 114, 111, 109, 101, 116, 101, 114]), (2, [110, 97, 110, 111, 109, 101, 116, 101, 114]), (2, [112, 105, 99, 111, 109, 101, 116, 101, 114]), (2, [97, 110, 103, 115, 116, 114, 111, 109]), (2, [102, 101, 109, 116, 111, 109, 101, 116, 101, 114]), (2, [105, 110, 99, 104]), (2, [102, 111, 111, 116]), (2, [109, 105, 108, 101]), (2, [121, 97, 114, 100]), (2, [109, 105, 108]), (2, [112, 97, 114, 115, 101, 99]), (2, [108, 105, 103, 104, 116, 95, 121, 101, 97, 114]), (2, [97, 115, 116, 114, 111, 110, 111, 109, 105, 99, 97, 108, 95, 117, 110, 105, 116]), (2, [110, 97, 117, 116, 105, 99, 97, 108, 95, 109, 105, 108, 101]), (2, [112, 114, 105, 110, 116, 101, 114, 115, 95, 112, 111, 105, 110, 116]), (2, [112, 105, 99, 97]), (2, [85, 83, 95, 115, 117, 114, 118, 101, 121, 95, 102, 111, 111, 116]), (2, [85, 83, 95, 115, 117, 114, 118, 101, 121, 95, 121, 97, 114, 100]), (2, [85, 83, 95, 115, 117, 114, 118, 101, 121, 95, 109, 105, 108, 101]), (2, [114, 111, 100]), (2, [102, 117, 114, 108, 111, 110, 103]), (2, [102, 97, 116, 104, 111, 109]), (2, [99, 104, 97, 105, 110]), (2, [98, 97, 114, 108, 101, 121, 99, 111, 114, 110]), (2, [97, 114, 112, 101, 110, 116, 108, 105, 110]), (0, [107, 97, 121, 115, 101, 114])]
/-- twice the exponents in the base units -/
def d_t_length : List (List Int) := [
  [0, 2, 0, 0, 0, 0, 0, 0],
  [0, 2, 0, 0, 0, 0, 0, 0],
  [0, 2, 0, 0, 0, 0, 0, 0],
  [0, 2, 0, 0, 0, 0, 0, 0],
  [0, 2, 0, 0, 0, 0, 0, 0],
  [0, 2, 0, 0, 0, 0, 0, 0],
  [0, 2, 0, 0, 0, 0, 0, 0],
  [0, 2, 0, 0, 0, 0, 0, 0],
  [0, 2, 0, 0, 0, 0, 0, 0],
  [0, 2, 0, 0, 0, 0, 0, 0],
  [0, 2, 0, 0, 0, 0, 0, 0],
  [0, 2, 0, 0, 0, 0, 0, 0],
  [0, 2, 0, 0, 0, 0, 0, 0],
  [0, 2, 0, 0, 0, 0, 0, 0],
  [0, 2, 0, 0, 0, 0, 0, 0],
  [0, 2, 0, 0, 0, 0, 0, 0],
  [0, 2, 0, 0, 0, 0, 0, 0],
  [0, 2, 0, 0, 0, 0, 0, 0],
  [0, 2, 0, 0, 0, 0, 0, 0],
  [0, 2, 0, 0, 0, 0, 0, 0],
  [0, 2, 0, 0, 0, 0, 0, 0],
  [0, 2, 0, 0, 0, 0, 0, 0],
  [0, 2, 0, 0, 0, 0, 0, 0],
  [0, 2, 0, 0, 0, 0, 0, 0],
  [0, 2, 0, 0, 0, 0, 0, 0],
  [0, 2, 0, 0, 0, 0, 0, 0],
  [0, 2, 0, 0, 0, 0, 0, 0],
  [0, 2, 0, 0, 0, 0, 0, 0],
  [0, 2, 0, 0, 0, 0, 0, 0],
  [0, 2, 0, 0, 0, 0, 0, 0],
  [0, -2, 0, 0, 0, 0, 0, 0]]

/-- code points of the labels -/
def l_t_acceleration : List (List Nat) := [[115, 116, 97, 110, 100, 97, 114, 100, 95, 103, 114, 97, 118, 105, 116, 121], [103, 95, 48]]
/-- class number and code points of the name -/
def k_t_acceleration : List (Nat × List Nat) := [(0, [115, 116, 97, 110, 100, 97, 114, 100, 95, 103, 114, 97, 118, 105, 116, 121])]
/-- twice the exponents in the base units -/
def d_t_acceleration : List (List Int) := [
  [-4, 2, 0, 0, 0, 0, 0, 0]]

/-- code points of the labels -/
def l_t_angle : List (List Nat) := [[114, 97, 100, 105, 97, 110], [114, 97, 100], [114, 97, 100, 105, 97, 110, 115], [109, 105, 108, 108, 105, 114, 97, 100, 105, 97, 110], [109, 114, 97, 100], [109, 105, 108, 108, 105, 114, 97, 100, 105, 97, 110, 115], [109, 105, 99, 114, 111, 114, 97, 100, 105, 97, 110], [117, 114, 97, 100], [109, 105, 99, 114, 111, 114, 97, 100, 105, 97, 110, 115], [116, 117, 114, 110], [116, 117, 114, 110, 115], [114, 101, 118, 111, 108, 117, 116, 105, 111, 110, 115], [99, 105, 114, 99, 108, 101, 115], [99, 121, 99, 108, 101, 115], [97, 114, 99, 100, 101, 103, 114, 101, 101], [100, 101, 103], [100, 101, 103, 114, 101, 101], [100, 101, 103, 114, 101, 101, 115], [97, 114, 99, 95, 100, 101, 103, 114, 101, 101], [97, 114, 99, 95, 100, 101, 103, 114, 101, 101, 115], [97, 110, 103, 117, 108, 97, 114, 95, 100, 101, 103, 114, 101, 101], [97, 110, 103, 117, 108, 97, 114, 95, 100, 101, 103, 114, 101, 101, 115], [97, 114, 99, 100, 101, 103, 114, 101, 101, 115], [97, 114, 99, 100, 101, 103], [97, 114, 99, 109, 105, 110, 117, 116, 101], [97, 114, 99, 109, 105, 110], [97, 114, 99, 109, 105, 110, 115], [97, 114, 99, 109, 105, 110, 117, 116, 101, 115], [97, 114, 99, 95, 109, 105, 110, 117, 116, 101], [97, 114, 99, 95, 109, 105, 110, 117, 116, 101, 115], [97, 110, 103, 117, 108, 97, 114, 95, 109, 105, 110, 117, 116, 101], [97, 110, 103, 117, 108, 97, 114, 95, 109, 105, 110, 117, 116, 101, 115], [97, 114, 99, 115, 101, 99, 111, 110, 100], [97, 114, 99, 115, 101, 99], [97, 114, 99, 115, 101, 99, 115], [97, 114, 99, 115, 101, 99, 111, 110, 100, 115], [97, 114, 99, 95, 115, 101, 99, 111, 110, 100], [97, 114, 99, 95, 115, 101, 99, 111, 110, 100, 115], [97, 110, 103, 117, 108, 97, 114, 95, 115, 101, 99, 111, 110, 100], [97, 110, 103, 117, 108, 97, 114, 95, 115, 101, 99, 111, 110, 100, 115], [103, 114, 97, 100], [103, 114, 97, 100, 115], [103, 114, 97, 100, 101], [103, 114, 97, 100, 101, 115], [103, 114, 111, 110], [103, 114, 111, 110, 115], [103, 114, 97, 100, 105, 97, 110], [103, 114, 97, 100, 105, 97, 110, 115], [100, 101, 103, 114, 101, 101, 115, 95, 110, 111, 114, 116, 104], [100, 101, 103, 78], [100, 101, 103, 114, 101, 101, 115, 95, 78], [100, 101, 103, 114, 101, 101, 115, 95, 101, 97, 115, 116], [100, 101, 103, 69], [100, 101, 103, 114, 101, 101, 115, 95, 69], [100, 101, 103, 114, 101, 101, 115, 95, 119, 101, 115, 116], [100, 101, 103, 87], [100, 101, 103, 114, 101, 101, 115, 95, 87], [100, 101, 103, 114, 101, 101, 115, 95, 116, 114, 117, 101], [100, 101, 103, 84], [100, 101, 103, 114, 101, 101, 115, 95, 84], [115, 116, 101, 114, 97, 100, 105, 97, 110], [115, 114], [115, 116, 101, 114, 97, 100, 105, 97, 110, 115]]
/-- class number and code points of the name -/
def k_t_angle : List (Nat × List Nat) := [(0, [114, 97, 100, 105, 97, 110]), (0, [109, 105, 108, 108, 105, 114, 97, 100, 105, 97, 110]), (0, [109, 105, 99, 114, 111, 114, 97, 100, 105, 97, 110]), (0, [116, 117, 114, 110]), (0, [97, 114, 99, 100, 101, 103, 114, 101, 101]), (0, [97, 114, 99, 109, 105, 110, 117, 116, 101]), (0, [97, 114, 99, 115, 101, 99, 111, 110, 100]), (0, [103, 114, 97, 100]), (0, [100, 101, 103, 114, 101, 101, 115, 95, 110, 111, 114, 116, 104]), (0, [100, 101, 103, 114, 101, 101, 115, 95, 101, 97, 115, 116]), (0, [100, 101, 103, 114, 101, 101, 115, 95, 119, 101, 115, 116]), (0, [100, 101, 103, 114, 101, 101, 115, 95, 116, 114, 117, 101]), (0, [115, 116, 101, 114, 97, 100, 105, 97, 110])]
/-- twice the exponents in the base units -/
def d_t_angle : List (List Int) := [
  [0, 0, 0, 0, 0, 0, 0, 0],
  [0, 0, 0, 0, 0, 0, 0, 0],
  [0, 0, 0, 0, 0, 0, 0, 0],
  [0, 0, 0, 0, 0, 0, 0, 0],
  [0, 0, 0, 0, 0, 0, 0, 0],
  [0, 0, 0, 0, 0, 0, 0, 0],
  [0, 0, 0, 0, 0, 0, 0, 0],
  [0, 0, 0, 0, 0, 0, 0, 0],
  [0, 0, 0, 0, 0, 0, 0, 0],
  [0, 0, 0, 0, 0, 0, 0, 0],
  [0, 0, 0, 0, 0, 0, 0, 0],
  [0, 0, 0, 0, 0, 0, 0, 0],
  [0, 0, 0, 0, 0, 0, 0, 0]]

/-- code points of the labels -/
def l_t_area : List (List Nat) := [[97, 114, 101], [97, 114, 101, 115], [98, 97, 114, 110], [98], [98, 97, 114, 110, 101, 115], [99, 105, 114, 99, 117, 108, 97, 114, 95, 109, 105, 108], [99, 109, 105, 108], [99, 105, 114, 99, 117, 108, 97, 114, 95, 109, 105, 108, 115], [100, 97, 114, 99, 121], [68], [109, 105, 108, 108, 105, 100, 97, 114, 99, 121], [109, 68], [104, 101, 99, 116, 97, 114, 101], [104, 97], [104, 101, 99, 116, 97, 114, 101, 115], [97, 99, 114, 101], [97, 99, 114, 101, 115], [105, 110, 116, 101, 114, 110, 97, 116, 105, 111, 110, 97, 108, 95, 97, 99, 114, 101], [105, 110, 116, 101, 114, 110, 97, 116, 105, 111, 110, 97, 108, 95, 97, 99, 114, 101, 115], [85, 83, 95, 115, 117, 114, 118, 101, 121, 95, 97, 99, 114, 101], [85, 83, 95, 115, 117, 114, 118, 101, 121, 95, 97, 99, 114, 101, 115]]
/-- class number and code points of the name -/
def k_t_area : List (Nat × List Nat) := [(0, [97, 114, 101]), (0, [98, 97, 114, 110]), (0, [99, 105, 114, 99, 117, 108, 97, 114, 95, 109, 105, 108]), (0, [100, 97, 114, 99, 121]), (0, [109, 105, 108, 108, 105, 100, 97, 114, 99, 121]), (0, [104, 101, 99, 116, 97, 114, 101]), (0, [97, 99, 114, 101]), (0, [85, 83, 95, 115, 117, 114, 118, 101, 121, 95, 97, 99, 114, 101])]
/-- twice the exponents in the base units -/
def d_t_area : List (List Int) := [
  [0, 4, 0, 0, 0, 0, 0, 0],
  [0, 4, 0, 0, 0, 0, 0, 0],
  [0, 4, 0, 0, 0, 0, 0, 0],
  [0, 4, 0, 0, 0, 0, 0, 0],
  [0, 4, 0, 0, 0, 0, 0, 0],
  [0, 4, 0, 0, 0, 0, 0, 0],
  [0, 4, 0, 0, 0, 0, 0, 0],
  [0, 4, 0, 0, 0, 0, 0, 0]]

/-- code points of the labels -/
def l_t_compound : List (List Nat) := []
/-- class number and code points of the name -/
def k_t_compound : List (Nat × List Nat) := [(10, [112, 99, 47, 99, 109, 42, 42, 51])]
/-- twice the exponents in the base units -/
def d_t_compound : List (List Int) := [
  [0, -4, 0, 0, 0, 0, 0, 0]]

/-- code points of the labels -/
def l_t_substance : List (List Nat) := [[109, 111, 108, 101], [109, 111, 108], [109, 105, 108, 108, 105, 109, 111, 108, 101], [109, 109, 111, 108], [109, 105, 99, 114, 111, 109, 111, 108, 101], [117, 109, 111, 108]]
/-- class number and code points of the name -/
def k_t_substance : List (Nat × List Nat) := [(6, [109, 111, 108, 101]), (6, [109, 105, 108, 108, 105, 109, 111, 108, 101]), (6, [109, 105, 99, 114, 111, 109, 111, 108, 101])]
/-- twice the exponents in the base units -/
def d_t_substance : List (List Int) := [
  [0, 0, 2, 0, 0, 0, 0, 0],
  [0, 0, 2, 0, 0, 0, 0, 0],
  [0, 0, 2, 0, 0, 0, 0, 0]]

/-- code points of the labels -/
def l_t_volume : List (List Nat) := [[108, 105, 116, 101, 114], [76], [108], [108, 105, 116, 101, 114, 115], [108, 105, 116, 114, 101], [108, 105, 116, 114, 101, 115], [109, 105, 108, 108, 105, 108, 105, 116, 101, 114], [109, 76], [109, 108], [109, 105, 108, 108, 105, 108, 105, 116, 101, 114, 115], [109, 105, 108, 108, 105, 108, 105, 116, 114, 101], [109, 105, 108, 108, 105, 108, 105, 116, 114, 101, 115], [107, 105, 108, 111, 108, 105, 116, 101, 114], [107, 76], [107, 108], [107, 105, 108, 111, 108, 105, 116, 101, 114, 115], [107, 105, 108, 111, 108, 105, 116, 114, 101], [107, 105, 108, 111, 108, 105, 116, 114, 101, 115], [109, 101, 103, 97, 108, 105, 116, 101, 114], [77, 76], [77, 108], [109, 101, 103, 97, 108, 105, 116, 101, 114, 115], [109, 101, 103, 97, 108, 105, 116, 114, 101], [109, 101, 103, 97, 108, 105, 116, 114, 101, 115], [103, 105, 103, 97, 108, 105, 116, 101, 114], [71, 76], [71, 108], [103, 105, 103, 97, 108, 105, 116, 101, 114, 115], [103, 105, 103, 97, 108, 105, 116, 114, 101], [103, 105, 103, 97, 108, 105, 116, 114, 101, 115], [99, 117, 98, 105, 99, 95, 99, 101, 110, 116, 105, 109, 101, 116, 101, 114], [99, 99], [99, 117, 98, 105, 99, 95, 99, 101, 110, 116, 105, 109, 101, 116, 101, 114, 115], [115, 116, 101, 114, 101], [115, 116, 101, 114, 101, 115], [103, 114, 111, 115, 115, 95, 114, 101, 103, 105, 115, 116, 101, 114, 95, 116, 111, 110], [71, 82, 84], [103, 114, 111, 115, 115, 95, 114, 101, 103, 105, 115, 116, 101, 114, 95, 116, 111, 110, 115], [114, 101, 103, 105, 115, 116, 101, 114, 95, 116, 111, 110], [114, 101, 103, 105, 115, 116, 101, 114, 95, 116, 111, 110, 115], [97, 99, 114, 101, 95, 102, 111, 111, 116], [97, 99, 114, 101, 95, 102, 101, 101, 116], [98, 111, 97, 114, 100, 95, 102, 111, 111, 116], [70, 66, 77], [98, 111, 97, 114, 100, 95, 102, 101, 101, 116], [85, 83, 95, 98, 117, 115, 104, 101, 108], [98, 117], [85, 83, 95, 100, 114, 121, 95, 103, 97, 108, 108, 111, 110], [85, 83, 95, 108, 105, 113, 117, 105, 100, 95, 103, 97, 108, 108, 111, 110], [103, 97, 108, 108, 111, 110], [103, 97, 108, 108, 111, 110, 115], [108, 105, 113, 117, 105, 100, 95, 103, 97, 108, 108, 111, 110], [108, 105, 113, 117, 105, 100, 95, 103, 97, 108, 108, 111, 110, 115], [85, 83, 95, 108, 105, 113, 117, 105, 100, 95, 103, 97, 108, 108, 111, 110, 115], [85, 83, 95, 100, 114, 121, 95, 113, 117, 97, 114, 116], [100, 114, 121, 95, 113, 117, 97, 114, 116], [100, 114, 121, 95, 113, 117, 97, 114, 116, 115], [85, 83, 95, 100, 114, 121, 95, 113, 117, 97, 114, 116, 115], [85, 83, 95, 100, 114, 121, 95, 112, 105, 110, 116], [100, 114, 121, 95, 112, 105, 110, 116], [100, 114, 121, 95, 112, 105, 110, 116, 115], [85, 83, 95, 100, 114, 121, 95, 112, 105, 110, 116, 115], [85, 83, 95, 108, 105, 113, 117, 105, 100, 95, 113, 117, 97, 114, 116], [113, 117, 97, 114, 116], [113, 117, 97, 114, 116, 115], [108, 105, 113, 117, 105, 100, 95, 113, 117, 97, 114, 116], [108, 105, 113, 117, 105, 100, 95, 113, 117, 97, 114, 116, 115], [85, 83, 95, 108, 105, 113, 117, 105, 100, 95, 113, 117, 97, 114, 116, 115], [85, 83, 95, 108, 105, 113, 117, 105, 100, 95, 112, 105, 110, 116], [112, 116], [112, 105, 110, 116], [112, 105, 110, 116, 115], [108, 105, 113, 117, 105, 100, 95, 112, 105, 110, 116], [108, 105, 113, 117, 105, 100, 95, 112, 105, 110, 116, 115], [85, 83, 95, 108, 105, 113, 117, 105, 100, 95, 112, 105, 110, 116, 115], [99, 117, 112], [99, 117, 112, 115], [85, 83, 95, 108, 105, 113, 117, 105, 100, 95, 99, 117, 112], [85, 83, 95, 108, 105, 113, 117, 105, 100, 95, 99, 117, 112, 115], [85, 83, 95, 108, 105, 113, 117, 105, 100, 95, 103, 105, 108, 108], [103, 105, 108, 108], [103, 105, 108, 108, 115], [85, 83, 95, 108, 105, 113, 117, 105, 100, 95, 103, 105, 108, 108, 115], [85, 83, 95, 102, 108, 117, 105, 100, 95, 111, 117, 110, 99, 101], [102, 108, 95, 111, 122], [102, 108, 117, 105, 100, 95, 111, 117, 110, 99, 101], [102, 108, 117, 105, 100, 95, 111, 117, 110, 99, 101, 115], [85, 83, 95, 102, 108, 117, 105, 100, 95, 111, 117, 110, 99, 101, 115], [85, 83, 95, 108, 105, 113, 117, 105, 100, 95, 111, 117, 110, 99, 101], [85, 83, 95, 108, 105, 113, 117, 105, 100, 95, 111, 117, 110, 99, 101, 115], [73, 109, 112, 101, 114, 105, 97, 108, 95, 98, 117, 115, 104, 101, 108], [85, 75, 95, 108, 105, 113, 117, 105, 100, 95, 103, 97, 108, 108, 111, 110], [85, 75, 95, 108, 105, 113, 117, 105, 100, 95, 103, 97, 108, 108, 111, 110, 115], [67, 97, 110, 97, 100, 105, 97, 110, 95, 108, 105, 113, 117, 105, 100, 95, 103, 97, 108, 108, 111, 110], [67, 97, 110, 97, 100, 105, 97, 110, 95, 108, 105, 113, 117, 105, 100, 95, 103, 97, 108, 108, 111, 110, 115], [85, 75, 95, 108, 105, 113, 117, 105, 100, 95, 113, 117, 97, 114, 116], [85, 75, 95, 108, 105, 113, 117, 105, 100, 95, 113, 117, 97, 114, 116, 115], [85, 75, 95, 108, 105, 113, 117, 105, 100, 95, 112, 105, 110, 116], [85, 75, 95, 108, 105, 113, 117, 105, 100, 95, 112, 105, 110, 116, 115], [85, 75, 95, 108, 105, 113, 117, 105, 100, 95, 99, 117, 112], [85, 75, 95, 108, 105, 113, 117, 105, 100, 95, 99, 117, 112, 115], [85, 75, 95, 108, 105, 113, 117, 105, 100, 95, 103, 105, 108, 108], [85, 75, 95, 108, 105, 113, 117, 105, 100, 95, 103, 105, 108, 108, 115], [85, 75, 95, 102, 108, 117, 105, 100, 95, 111, 117, 110, 99, 101], [85, 75, 95, 102, 108, 117, 105, 100, 95, 111, 117, 110, 99, 101, 115], [85, 75, 95, 108, 105, 113, 117, 105, 100, 95, 111, 117, 110, 99, 101], [85, 75, 95, 108, 105, 113, 117, 105, 100, 95, 111, 117, 110, 99, 101, 115], [98, 97, 114, 114, 101, 108], [98, 98, 108], [116, 97, 98, 108, 101, 115, 112, 111, 111, 110], [116, 98, 115, 112], [84, 98, 115, 112], [84, 98, 108, 115, 112], [84, 98, 108], [116, 98, 108, 115, 112], [116, 98, 115], [116, 97, 98, 108, 101, 115, 112, 111, 111, 110, 115], [116, 101, 97, 115, 112, 111, 111, 110], [116, 115, 112], [116, 101, 97, 115, 112, 111, 111, 110, 115], [112, 101, 99, 107], [112, 107], [112, 101, 99, 107, 115], [102, 108, 117, 105, 100, 95, 100, 114, 97, 109], [102, 108, 100, 114], [102, 108, 117, 105, 100, 95, 100, 114, 97, 109, 115], [102, 108, 117, 105, 100, 114, 97, 109], [102, 108, 117, 105, 100, 114, 97, 109, 115], [102, 105, 114, 107, 105, 110]]
/-- class number and code points of the name -/
def k_t_volume : List (Nat × List Nat) := [(0, [108, 105, 116, 101, 114]), (0, [109, 105, 108, 108, 105, 108, 105, 116, 101, 114]), (0, [107, 105, 108, 111, 108, 105, 116, 101, 114]), (0, [109, 101, 103, 97, 108, 105, 116, 101, 114]), (0, [103, 105, 103, 97, 108, 105, 116, 101, 114]), (0, [99, 117, 98, 105, 99, 95, 99, 101, 110, 116, 105, 109, 101, 116, 101, 114]), (0, [115, 116, 101, 114, 101]), (0, [103, 114, 111, 115, 115, 95, 114, 101, 103, 105, 115, 116, 101, 114, 95, 116, 111, 110]), (0, [97, 99, 114, 101, 95, 102, 111, 111, 116]), (0, [98, 111, 97, 114, 100, 95, 102, 111, 111, 116]), (0, [85, 83, 95, 98, 117, 115, 104, 101, 108]), (0, [85, 83, 95, 100, 114, 121, 95, 103, 97, 108, 108, 111, 110]), (0, [85, 83, 95, 108, 105, 113, 117, 105, 100, 95, 103, 97, 108, 108, 111, 110]), (0, [85, 83, 95, 100, 114, 121, 95, 113, 117, 97, 114, 116]), (0, [85, 83, 95, 100, 114, 121, 95, 112, 105, 110, 116]), (0, [85, 83, 95, 108, 105, 113, 117, 105, 100, 95, 113, 117, 97, 114, 116]), (0, [85, 83, 95, 108, 105, 113, 117, 105, 100, 95, 112, 105, 110, 116]), (0, [99, 117, 112]), (0, [85, 83, 95, 108, 105, 113, 117, 105, 100, 95, 103, 105, 108, 108]), (0, [85, 83, 95, 102, 108, 117, 105, 100, 95, 111, 117, 110, 99, 101]), (0, [73, 109, 112, 101, 114, 105, 97, 108, 95, 98, 117, 115, 104, 101, 108]), (0, [85, 75, 95, 108, 105, 113, 117, 105, 100, 95, 103, 97, 108, 108, 111, 110]), (0, [85, 75, 95, 108, 105, 113, 117, 105, 100, 95, 113, 117, 97, 114, 116]), (0, [85, 75, 95, 108, 105, 113, 117, 105, 100, 95, 112, 105, 110, 116]), (0, [85, 75, 95, 108, 105, 113, 117, 105, 100, 95, 99, 117, 112]), (0, [85, 75, 95, 108, 105, 113, 117, 105, 100, 95, 103, 105, 108, 108]), (0, [85, 75, 95, 102, 108, 117, 105, 100, 95, 111, 117, 110, 99, 101]), (0, [98, 97, 114, 114, 101, 108]), (0, [116, 97, 98, 108, 101, 115, 112, 111, 111, 110]), (0, [116, 101, 97, 115, 112, 111, 111, 110]), (0, [112, 101, 99, 107]), (0, [102, 108, 117, 105, 100, 95, 100, 114, 97, 109]), (0, [102, 105, 114, 107, 105, 110])]
/-- twice the exponents in the base units -/
def d_t_volume : List (List Int) := [
  [0, 6, 0, 0, 0, 0, 0, 0],
  [0, 6, 0, 0, 0, 0, 0, 0],
  [0, 6, 0, 0, 0, 0, 0, 0],
  [0, 6, 0, 0, 0, 0, 0, 0],
  [0, 6, 0, 0, 0, 0, 0, 0],
  [0, 6, 0, 0, 0, 0, 0, 0],
  [0, 6, 0, 0, 0, 0, 0, 0],
  [0, 6, 0, 0, 0, 0, 0, 0],
  [0, 6, 0, 0, 0, 0, 0, 0],
  [0, 6, 0, 0, 0, 0, 0, 0],
  [0, 6, 0, 0, 0, 0, 0, 0],
  [0, 6, 0, 0, 0, 0, 0, 0],
  [0, 6, 0, 0, 0, 0, 0, 0],
  [0, 6, 0, 0, 0, 0, 0, 0],
  [0, 6, 0, 0, 0, 0, 0, 0],
  [0, 6, 0, 0, 0, 0, 0, 0],
  [0, 6, 0, 0, 0, 0, 0, 0],
  [0, 6, 0, 0, 0, 0, 0, 0],
  [0, 6, 0, 0, 0, 0, 0, 0],
  [0, 6, 0, 0, 0, 0, 0, 0],
  [0, 6, 0, 0, 0, 0, 0, 0],
  [0, 6, 0, 0, 0, 0, 0, 0],
  [0, 6, 0, 0, 0, 0, 0, 0],
  [0, 6, 0, 0, 0, 0, 0, 0],
  [0, 6, 0, 0, 0, 0, 0, 0],
  [0, 6, 0, 0, 0, 0, 0, 0],
  [0, 6, 0, 0, 0, 0, 0, 0],
  [0, 6, 0, 0, 0, 0, 0, 0],
  [0, 6, 0, 0, 0, 0, 0, 0],
  [0, 6, 0, 0, 0, 0, 0, 0],
  [0, 6, 0, 0, 0, 0, 0, 0],
  [0, 6, 0, 0, 0, 0, 0, 0],
  [0, 6, 0, 0, 0, 0, 0, 0]]

/-- code points of the labels -/
def l_t_concentration : List (List Nat) := [[109, 111, 108, 97, 114], [77], [77, 111, 108, 97, 114], [109, 105, 108, 108, 105, 109, 111, 108, 97, 114], [109, 77], [109, 105, 99, 114, 111, 109, 111, 108, 97, 114], [117, 77]]
/-- class number and code points of the name -/
def k_t_concentration : List (Nat × List Nat) := [(0, [109, 111, 108, 97, 114]), (0, [109, 105, 108, 108, 105, 109, 111, 108, 97, 114]), (0, [109, 105, 99, 114, 111, 109, 111, 108, 97, 114])]
/-- twice the exponents in the base units -/
def d_t_concentration : List (List Int) := [
  [0, -6, 2, 0, 0, 0, 0, 0],
  [0, -6, 2, 0, 0, 0, 0, 0],
  [0, -6, 2, 0, 0, 0, 0, 0]]

/-- code points of the labels -/
def l_t_dimensionless : List (List Nat) := [[112, 101, 114, 99, 101, 110, 116], [37], [99, 111, 117, 110, 116], [99, 116], [99, 116, 115], [99, 111, 117, 110, 116, 115], [108, 101, 97, 115, 116, 95, 115, 105, 103, 110, 105, 102, 105, 99, 97, 110, 116, 95, 98, 105, 116], [108, 115, 98], [108, 115, 98, 115]]
/-- class number and code points of the name -/
def k_t_dimensionless : List (Nat × List Nat) := [(0, [112, 101, 114, 99, 101, 110, 116]), (0, [99, 111, 117, 110, 116]), (0, [108, 101, 97, 115, 116, 95, 115, 105, 103, 110, 105, 102, 105, 99, 97, 110, 116, 95, 98, 105, 116])]
/-- twice the exponents in the base units -/
def d_t_dimensionless : List (List Int) := [
  [0, 0, 0, 0, 0, 0, 0, 0],
  [0, 0, 0, 0, 0, 0, 0, 0],
  [0, 0, 0, 0, 0, 0, 0, 0]]

/-- code points of the labels -/
def l_t_mass : List (List Nat) := [[107, 105, 108, 111, 103, 114, 97, 109], [107, 103], [107, 105, 108, 111, 103, 114, 97, 109, 115], [103, 114, 97, 109], [103], [103, 114, 97, 109, 115], [109, 105, 108, 108, 105, 103, 114, 97, 109], [109, 103], [109, 105, 108, 108, 105, 103, 114, 97, 109, 115], [111, 117, 110, 99, 101], [111, 122], [111, 117, 110, 99, 101, 115], [97, 118, 111, 105, 114, 100, 117, 112, 111, 105, 115, 95, 111, 117, 110, 99, 101], [97, 118, 111, 105, 114, 100, 117, 112, 111, 105, 115, 95, 111, 117, 110, 99, 101, 115], [112, 111, 117, 110, 100], [108, 98], [112, 111, 117, 110, 100, 115], [97, 118, 111, 105, 114, 100, 117, 112, 111, 105, 115, 95, 112, 111, 117, 110, 100], [97, 118, 111, 105, 114, 100, 117, 112, 111, 105, 115, 95, 112, 111, 117, 110, 100, 115], [115, 116, 111, 110, 101], [115, 116], [99, 97, 114, 97, 116], [99, 97, 114, 97, 116, 115], [103, 114, 97, 105, 110], [103, 114], [103, 114, 97, 105, 110, 115], [108, 111, 110, 103, 95, 104, 117, 110, 100, 114, 101, 100, 119, 101, 105, 103, 104, 116], [108, 111, 110, 103, 95, 104, 117, 110, 100, 114, 101, 100, 119, 101, 105, 103, 104, 116, 115], [115, 104, 111, 114, 116, 95, 104, 117, 110, 100, 114, 101, 100, 119, 101, 105, 103, 104, 116], [115, 104, 111, 114, 116, 95, 104, 117, 110, 100, 114, 101, 100, 119, 101, 105, 103, 104, 116, 115], [116, 111, 110, 110, 101], [116], [116, 111, 110, 110, 101, 115], [112, 101, 110, 110, 121, 119, 101, 105, 103, 104, 116], [100, 119, 116], [112, 101, 110, 110, 121, 119, 101, 105, 103, 104, 116, 115], [115, 108, 117, 103], [115, 108, 117, 103, 115], [116, 114, 111, 121, 95, 111, 117, 110, 99, 101], [116, 111, 122], [97, 112, 111, 117, 110, 99, 101], [97, 112, 111, 117, 110, 99, 101, 115], [97, 112, 111, 116, 104, 101, 99, 97, 114, 121, 95, 111, 117, 110, 99, 101], [97, 112, 111, 116, 104, 101, 99, 97, 114, 121, 95, 111, 117, 110, 99, 101, 115], [116, 114, 111, 121, 95, 111, 117, 110, 99, 101, 115], [116, 114, 111, 121, 95, 112, 111, 117, 110, 100], [116, 108, 98], [116, 114, 111, 121, 95, 112, 111, 117, 110, 100, 115], [97, 112, 112, 111, 117, 110, 100], [97, 112, 112, 111, 117, 110, 100, 115], [97, 112, 111, 116, 104, 101, 99, 97, 114, 121, 95, 112, 111, 117, 110, 100], [97, 112, 111, 116, 104, 101, 99, 97, 114, 121, 95, 112, 111, 117, 110, 100, 115], [97, 116, 111, 109, 105, 99, 95, 109, 97, 115, 115, 95, 117, 110, 105, 116], [117], [97, 109, 117], [68, 97], [100, 97, 108, 116, 111, 110], [115, 99, 114, 117, 112, 108, 101], [115, 99, 114, 117, 112, 108, 101, 115], [100, 114, 97, 109], [100, 114], [100, 114, 97, 109, 115], [100, 114, 97, 99, 104, 109], [100, 114, 97, 99, 104, 109, 115], [97, 112, 100, 114, 97, 109], [97, 112, 100, 114, 97, 109, 115], [98, 97, 103], [98, 97, 103, 115], [115, 104, 111, 114, 116, 95, 116, 111, 110], [115, 104, 111, 114, 116, 95, 116, 111, 110, 115], [108, 111, 110, 103, 95, 116, 111, 110], [108, 111, 110, 103, 95, 116, 111, 110, 115], [100, 101, 110, 105, 101, 114], [100, 101, 110, 105, 101, 114, 115], [116, 101, 120], [116, 101, 120, 115], [100, 116, 101, 120], [100, 116, 101, 120, 115]]
/-- class number and code points of the name -/
def k_t_mass : List (Nat × List Nat) := [(1, [107, 105, 108, 111, 103, 114, 97, 109]), (1, [103, 114, 97, 109]), (1, [109, 105, 108, 108, 105, 103, 114, 97, 109]), (1, [111, 117, 110, 99, 101]), (1, [112, 111, 117, 110, 100]), (1, [115, 116, 111, 110, 101]), (1, [99, 97, 114, 97, 116]), (1, [103, 114, 97, 105, 110]), (1, [108, 111, 110, 103, 95, 104, 117, 110, 100, 114, 101, 100, 119, 101, 105, 103, 104, 116]), (1, [115, 104, 111, 114, 116, 95, 104, 117, 110, 100, 114, 101, 100, 119, 101, 105, 103, 104, 116]), (1, [116, 111, 110, 110, 101]), (1, [112, 101, 110, 110, 121, 119, 101, 105, 103, 104, 116]), (1, [115, 108, 117, 103]), (1, [116, 114, 111, 121, 95, 111, 117, 110, 99, 101]), (1, [116, 114, 111, 121, 95, 112, 111, 117, 110, 100]), (1, [97, 116, 111, 109, 105, 99, 95, 109, 97, 115, 115, 95, 117, 110, 105, 116]), (1, [115, 99, 114, 117, 112, 108, 101]), (1, [100, 114, 97, 109]), (1, [100, 114, 97, 99, 104, 109]), (1, [98, 97, 103]), (1, [115, 104, 111, 114, 116, 95, 116, 111, 110]), (1, [108, 111, 110, 103, 95, 116, 111, 110]), (0, [100, 101, 110, 105, 101, 114]), (0, [116, 101, 120]), (0, [100, 116, 101, 120])]
/-- twice the exponents in the base units -/
def d_t_mass : List (List Int) := [
  [0, 0, 0, 2, 0, 0, 0, 0],
  [0, 0, 0, 2, 0, 0, 0, 0],
  [0, 0, 0, 2, 0, 0, 0, 0],
  [0, 0, 0, 2, 0, 0, 0, 0],
  [0, 0, 0, 2, 0, 0, 0, 0],
  [0, 0, 0, 2, 0, 0, 0, 0],
  [0, 0, 0, 2, 0, 0, 0, 0],
  [0, 0, 0, 2, 0, 0, 0, 0],
  [0, 0, 0, 2, 0, 0, 0, 0],
  [0, 0, 0, 2, 0, 0, 0, 0],
  [0, 0, 0, 2, 0, 0, 0, 0],
  [0, 0, 0, 2, 0, 0, 0, 0],
  [0, 0, 0, 2, 0, 0, 0, 0],
  [0, 0, 0, 2, 0, 0, 0, 0],
  [0, 0, 0, 2, 0, 0, 0, 0],
  [0, 0, 0, 2, 0, 0, 0, 0],
  [0, 0, 0, 2, 0, 0, 0, 0],
  [0, 0, 0, 2, 0, 0, 0, 0],
  [0, 0, 0, 2, 0, 0, 0, 0],
  [0, 0, 0, 2, 0, 0, 0, 0],
  [0, 0, 0, 2, 0, 0, 0, 0],
  [0, 0, 0, 2, 0, 0, 0, 0],
  [0, -2, 0, 2, 0, 0, 0, 0],
  [0, -2, 0, 2, 0, 0, 0, 0],
  [0, -2, 0, 2, 0, 0, 0, 0]]

/-- code points of the labels -/
def l_t_force : List (List Nat) := [[110, 101, 119, 116, 111, 110], [78], [110, 101, 119, 116, 111, 110, 115], [107, 105, 108, 111, 110, 101, 119, 116, 111, 110], [107, 78], [107, 105, 108, 111, 110, 101, 119, 116, 111, 110, 115], [100, 121, 110, 101], [100, 121, 110], [100, 121, 110, 101, 115], [112, 111, 110, 100], [112], [112, 111, 110, 100, 115], [107, 105, 108, 111, 103, 114, 97, 109, 95, 102, 111, 114, 99, 101], [107, 103, 102], [102, 111, 114, 99, 101, 95, 107, 105, 108, 111, 103, 114, 97, 109], [111, 117, 110, 99, 101, 95, 102, 111, 114, 99, 101], [111, 122, 102], [102, 111, 114, 99, 101, 95, 111, 117, 110, 99, 101], [112, 111, 117, 110, 100, 95, 102, 111, 114, 99, 101], [108, 98, 102], [102, 111, 114, 99, 101, 95, 112, 111, 117, 110, 100], [112, 111, 117, 110, 100, 97, 108], [112, 100, 108], [112, 111, 117, 110, 100, 97, 108, 115], [103, 114, 97, 109, 95, 102, 111, 114, 99, 101], [103, 102], [102, 111, 114, 99, 101, 95, 103, 114, 97, 109], [116, 111, 110, 95, 102, 111, 114, 99, 101], [102, 111, 114, 99, 101, 95, 116, 111, 110], [107, 105, 112]]
/-- class number and code points of the name -/
def k_t_force : List (Nat × List Nat) := [(0, [110, 101, 119, 116, 111, 110]), (0, [107, 105, 108, 111, 110, 101, 119, 116, 111, 110]), (0, [100, 121, 110, 101]), (0, [112, 111, 110, 100]), (0, [107, 105, 108, 111, 103, 114, 97, 109, 95, 102, 111, 114, 99, 101]), (0, [111, 117, 110, 99, 101, 95, 102, 111, 114, 99, 101]), (0, [112, 111, 117, 110, 100, 95, 102, 111, 114, 99, 101]), (0, [112, 111, 117, 110, 100, 97, 108]), (0, [103, 114, 97, 109, 95, 102, 111, 114, 99, 101]), (0, [116, 111, 110, 95, 102, 111, 114, 99, 101]), (0, [107, 105, 112])]
/-- twice the exponents in the base units -/
def d_t_force : List (List Int) := [
  [-4, 2, 0, 2, 0, 0, 0, 0],
  [-4, 2, 0, 2, 0, 0, 0, 0],
  [-4, 2, 0, 2, 0, 0, 0, 0],
  [-4, 2, 0, 2, 0, 0, 0, 0],
  [-4, 2, 0, 2, 0, 0, 0, 0],
  [-4, 2, 0, 2, 0, 0, 0, 0],
  [-4, 2, 0, 2, 0, 0, 0, 0],
  [-4, 2, 0, 2, 0, 0, 0, 0],
  [-4, 2, 0, 2, 0, 0, 0, 0],
  [-4, 2, 0, 2, 0, 0, 0, 0],
  [-4, 2, 0, 2, 0, 0, 0, 0]]

/-- code points of the labels -/
def l_t_energy : List (List Nat) := [[106, 111, 117, 108, 101], [74], [106, 111, 117, 108, 101, 115], [101, 114, 103], [66, 114, 105, 116, 105, 115, 104, 95, 116, 104, 101, 114, 109, 97, 108, 95, 117, 110, 105, 116], [66, 84, 85], [101, 108, 101, 99, 116, 114, 111, 110, 95, 118, 111, 108, 116], [101, 86], [101, 108, 101, 99, 116, 114, 111, 110, 95, 118, 111, 108, 116, 115], [109, 101, 86], [107, 101, 86], [77, 101, 86], [71, 101, 86], [69, 67, 95, 116, 104, 101, 114, 109], [116, 104, 109], [116, 104, 101, 114, 109, 111, 99, 104, 101, 109, 105, 99, 97, 108, 95, 99, 97, 108, 111, 114, 105, 101], [99, 97, 108], [99, 97, 108, 111, 114, 105, 101], [99, 97, 108, 111, 114, 105, 101, 115], [116, 104, 101, 114, 109, 111, 99, 104, 101, 109, 105, 99, 97, 108, 95, 99, 97, 108, 111, 114, 105, 101, 115], [105, 110, 116, 101, 114, 110, 97, 116, 105, 111, 110, 97, 108, 95, 115, 116, 101, 97, 109, 95, 116, 97, 98, 108, 101, 95, 99, 97, 108, 111, 114, 105, 101], [99, 97, 108, 95, 73, 84], [105, 110, 116, 101, 114, 110, 97, 116, 105, 111, 110, 97, 108, 95, 115, 116, 101, 97, 109, 95, 116, 97, 98, 108, 101, 95, 99, 97, 108, 111, 114, 105, 101, 115], [116, 111, 110, 95, 84, 78, 84], [116, 84, 78, 84], [85, 83, 95, 116, 104, 101, 114, 109], [85, 83, 95, 116, 104, 101, 114, 109, 115], [119, 97, 116, 116, 95, 104, 111, 117, 114], [87, 104], [119, 97, 116, 116, 104, 111, 117, 114], [119, 97, 116, 116, 104, 111, 117, 114, 115], [119, 97, 116, 116, 95, 104, 111, 117, 114, 115], [107, 105, 108, 111, 119, 97, 116, 116, 95, 104, 111, 117, 114], [107, 87, 104], [107, 105, 108, 111, 119, 97, 116, 116, 104, 111, 117, 114], [107, 105, 108, 111, 119, 97, 116, 116, 104, 111, 117, 114, 115], [107, 105, 108, 111, 119, 97, 116, 116, 95, 104, 111, 117, 114, 115], [109, 101, 103, 97, 119, 97, 116, 116, 95, 104, 111, 117, 114], [77, 87, 104], [109, 101, 103, 97, 119, 97, 116, 116, 104, 111, 117, 114], [109, 101, 103, 97, 119, 97, 116, 116, 104, 111, 117, 114, 115], [109, 101, 103, 97, 119, 97, 116, 116, 95, 104, 111, 117, 114, 115], [103, 105, 103, 97, 119, 97, 116, 116, 95, 104, 111, 117, 114], [71, 87, 104], [103, 105, 103, 97, 119, 97, 116, 116, 104, 111, 117, 114], [103, 105, 103, 97, 119, 97, 116, 116, 104, 111, 117, 114, 115], [103, 105, 103, 97, 119, 97, 116, 116, 95, 104, 111, 117, 114, 115], [104, 97, 114, 116, 114, 101, 101], [69, 95, 104], [104, 97, 114, 116, 114, 101, 101, 115], [104, 97, 114, 116, 114, 101, 101, 95, 101, 110, 101, 114, 103, 121], [72, 97, 114, 116, 114, 101, 101, 95, 101, 110, 101, 114, 103, 121]]
/-- class number and code points of the name -/
def k_t_energy : List (Nat × List Nat) := [(0, [106, 111, 117, 108, 101]), (0, [101, 114, 103]), (0, [66, 114, 105, 116, 105, 115, 104, 95, 116, 104, 101, 114, 109, 97, 108, 95, 117, 110, 105, 116]), (0, [101, 108, 101, 99, 116, 114, 111, 110, 95, 118, 111, 108, 116]), (0, [109, 101, 86]), (0, [107, 101, 86]), (0, [77, 101, 86]), (0, [71, 101, 86]), (0, [69, 67, 95, 116, 104, 101, 114, 109]), (0, [116, 104, 101, 114, 109, 111, 99, 104, 101, 109, 105, 99, 97, 108, 95, 99, 97, 108, 111, 114, 105, 101]), (0, [105, 110, 116, 101, 114, 110, 97, 116, 105, 111, 110, 97, 108, 95, 115, 116, 101, 97, 109, 95, 116, 97, 98, 108, 101, 95, 99, 97, 108, 111, 114, 105, 101]), (0, [116, 111, 110, 95, 84, 78, 84]), (0, [85, 83, 95, 116, 104, 101, 114, 109]), (0, [119, 97, 116, 116, 95, 104, 111, 117, 114]), (0, [107, 105, 108, 111, 119, 97, 116, 116, 95, 104, 111, 117, 114]), (0, [109, 101, 103, 97, 119, 97, 116, 116, 95, 104, 111, 117, 114]), (0, [103, 105, 103, 97, 119, 97, 116, 116, 95, 104, 111, 117, 114]), (0, [104, 97, 114, 116, 114, 101, 101])]
/-- twice the exponents in the base units -/
def d_t_energy : List (List Int) := [
  [-4, 4, 0, 2, 0, 0, 0, 0],
  [-4, 4, 0, 2, 0, 0, 0, 0],
  [-4, 4, 0, 2, 0, 0, 0, 0],
  [-4, 4, 0, 2, 0, 0, 0, 0],
  [-4, 4, 0, 2, 0, 0, 0, 0],
  [-4, 4, 0, 2, 0, 0, 0, 0],
  [-4, 4, 0, 2, 0, 0, 0, 0],
  [-4, 4, 0, 2, 0, 0, 0, 0],
  [-4, 4, 0, 2, 0, 0, 0, 0],
  [-4, 4, 0, 2, 0, 0, 0, 0],
  [-4, 4, 0, 2, 0, 0, 0, 0],
  [-4, 4, 0, 2, 0, 0, 0, 0],
  [-4, 4, 0, 2, 0, 0, 0, 0],
  [-4, 4, 0, 2, 0, 0, 0, 0],
  [-4, 4, 0, 2, 0, 0, 0, 0],
  [-4, 4, 0, 2, 0, 0, 0, 0],
  [-4, 4, 0, 2, 0, 0, 0, 0],
  [-4, 4, 0, 2, 0, 0, 0, 0]]

/-- code points of the labels -/
def l_t_velocity : List (List Nat) := [[115, 112, 101, 101, 100, 95, 111, 102, 95, 108, 105, 103, 104, 116], [99], [110, 97, 117, 116, 105, 99, 97, 108, 95, 109, 105, 108, 101, 115, 95, 112, 101, 114, 95, 104, 111, 117, 114], [107, 116], [107, 110, 111, 116], [107, 110, 111, 116, 115], [107, 110, 111, 116, 95, 105, 110, 116, 101, 114, 110, 97, 116, 105, 111, 110, 97, 108], [105, 110, 116, 101, 114, 110, 97, 116, 105, 111, 110, 97, 108, 95, 107, 110, 111, 116]]
/-- class number and code points of the name -/
def k_t_velocity : List (Nat × List Nat) := [(0, [115, 112, 101, 101, 100, 95, 111, 102, 95, 108, 105, 103, 104, 116]), (0, [110, 97, 117, 116, 105, 99, 97, 108, 95, 109, 105, 108, 101, 115, 95, 112, 101, 114, 95, 104, 111, 117, 114])]
/-- twice the exponents in the base units -/
def d_t_velocity : List (List Int) := [
  [-2, 2, 0, 0, 0, 0, 0, 0],
  [-2, 2, 0, 0, 0, 0, 0, 0]]

/-- code points of the labels -/
def l_t_electromagnetism : List (List Nat) := [[97, 109, 112, 101, 114, 101], [65], [97, 109, 112], [97, 109, 112, 115], [97, 109, 112, 101, 114, 101, 115], [109, 105, 108, 108, 105, 97, 109, 112, 101, 114, 101], [109, 65], [109, 105, 108, 108, 105, 97, 109, 112], [109, 105, 108, 108, 105, 97, 109, 112, 115], [109, 105, 108, 108, 105, 97, 109, 112, 101, 114, 101, 115], [109, 105, 99, 114, 111, 97, 109, 112, 101, 114, 101], [117, 65], [109, 105, 99, 114, 111, 97, 109, 112], [109, 105, 99, 114, 111, 97, 109, 112, 115], [109, 105, 99, 114, 111, 97, 109, 112, 101, 114, 101, 115], [110, 97, 110, 111, 97, 109, 112, 101, 114, 101], [110, 65], [110, 97, 110, 111, 97, 109, 112], [110, 97, 110, 111, 97, 109, 112, 115], [110, 97, 110, 111, 97, 109, 112, 101, 114, 101, 115], [112, 105, 99, 111, 97, 109, 112, 101, 114, 101], [112, 65], [112, 105, 99, 111, 97, 109, 112], [112, 105, 99, 111, 97, 109, 112, 115], [112, 105, 99, 111, 97, 109, 112, 101, 114, 101, 115], [97, 98, 97, 109, 112, 101, 114, 101], [97, 65], [97, 98, 97, 109, 112, 101, 114, 101, 115], [98, 105, 111, 116], [98, 105, 111, 116, 115], [115, 116, 97, 116, 99, 111, 117, 108, 111, 109, 98], [101, 115, 117], [115, 116, 97, 116, 99, 111, 117, 108, 111, 109, 98, 115], [115, 116, 97, 116, 67], [102, 114, 97, 110, 107, 108, 105, 110], [102, 114, 97, 110, 107, 108, 105, 110, 115], [70, 114], [115, 116, 97, 116, 97, 109, 112, 101, 114, 101], [40, 101, 115, 117, 47, 115, 41], [115, 116, 97, 116, 97, 109, 112, 101, 114, 101, 115], [97, 109, 112, 101, 114, 101, 95, 116, 117, 114, 110], [103, 105, 108, 98, 101, 114, 116], [71, 105], [99, 111, 117, 108, 111, 109, 98], [67], [109, 105, 108, 108, 105, 99, 111, 117, 108, 111, 109, 98], [109, 67], [109, 105, 99, 114, 111, 99, 111, 117, 108, 111, 109, 98], [117, 67], [118, 111, 108, 116], [86], [118, 111, 108, 116, 115], [107, 105, 108, 111, 118, 111, 108, 116], [107, 86], [107, 105, 108, 111, 118, 111, 108, 116, 115], [109, 105, 108, 108, 105, 118, 111, 108, 116], [109, 86], [109, 105, 108, 108, 105, 118, 111, 108, 116, 115], [109, 105, 99, 114, 111, 118, 111, 108, 116], [117, 86], [109, 105, 99, 114, 111, 118, 111, 108, 116, 115], [102, 97, 114, 97, 100], [70], [102, 97, 114, 97, 100, 115], [109, 105, 108, 108, 105, 102, 97, 114, 97, 100], [109, 70], [109, 105, 99, 114, 111, 102, 97, 114, 97, 100], [117, 70], [110, 97, 110, 111, 102, 97, 114, 97, 100], [110, 70], [112, 105, 99, 111, 102, 97, 114, 97, 100], [112, 70], [102, 101, 109, 116, 111, 102, 97, 114, 97, 100], [102, 70], [111, 104, 109], [111, 104, 109, 115], [79, 104, 109], [107, 105, 108, 111, 111, 104, 109], [107, 79, 104, 109], [107, 111, 104, 109], [107, 105, 108, 111, 111, 104, 109, 115], [109, 101, 103, 97, 111, 104, 109], [77, 79, 104, 109], [77, 111, 104, 109], [109, 101, 103, 97, 111, 104, 109, 115], [115, 105, 101, 109, 101, 110, 115], [83], [109, 105, 108, 108, 105, 115, 105, 101, 109, 101, 110, 115], [109, 83], [109, 105, 99, 114, 111, 115, 105, 101, 109, 101, 110, 115], [117, 83], [110, 97, 110, 111, 115, 105, 101, 109, 101, 110, 115], [110, 83], [112, 105, 99, 111, 115, 105, 101, 109, 101, 110, 115], [112, 83], [119, 101, 98, 101, 114], [87, 98], [119, 101, 98, 101, 114, 115], [116, 101, 115, 108, 97], [84], [116, 101, 115, 108, 97, 115], [104, 101, 110, 114, 121], [72], [97, 98, 102, 97, 114, 97, 100], [97, 98, 102, 97, 114, 97, 100, 115], [97, 98, 104, 101, 110, 114, 121], [97, 98, 109, 104, 111], [97, 98, 111, 104, 109], [97, 98, 118, 111, 108, 116], [97, 98, 118, 111, 108, 116, 115], [101, 108, 101, 109, 101, 110, 116, 97, 114, 121, 95, 99, 104, 97, 114, 103, 101], [101], [99, 104, 101, 109, 105, 99, 97, 108, 95, 102, 97, 114, 97, 100, 97, 121], [112, 104, 121, 115, 105, 99, 97, 108, 95, 102, 97, 114, 97, 100, 97, 121], [102, 97, 114, 97, 100, 97, 121], [102, 97, 114, 97, 100, 97, 121, 115], [103, 97, 109, 109, 97], [103, 97, 117, 115, 115], [71], [109, 97, 120, 119, 101, 108, 108], [77, 120], [109, 97, 120, 119, 101, 108, 108, 115], [111, 101, 114, 115, 116, 101, 100], [79, 101], [97, 108, 105, 97, 115, 101, 115], [115, 116, 97, 116, 102, 97, 114, 97, 100], [115, 116, 70], [115, 116, 97, 116, 102, 97, 114, 97, 100, 115], [115, 116, 97, 116, 70], [115, 116, 97, 116, 104, 101, 110, 114, 121], [115, 116, 72], [115, 116, 97, 116, 72], [115, 116, 97, 116, 109, 104, 111], [115, 116, 83], [115, 116, 97, 116, 111, 104, 109], [115, 116, 97, 116, 111, 104, 109, 115], [115, 116, 97, 116, 118, 111, 108, 116], [115, 116, 86], [115, 116, 97, 116, 118, 111, 108, 116, 115], [115, 116, 97, 116, 86], [117, 110, 105, 116, 95, 112, 111, 108, 101], [109, 97, 103, 110, 101, 116, 105, 99, 95, 99, 111, 110, 115, 116, 97, 110, 116], [109, 117, 95, 48], [118, 97, 99, 117, 117, 109, 95, 112, 101, 114, 109, 101, 97, 98, 105, 108, 105, 116, 121], [101, 108, 101, 99, 116, 114, 105, 99, 95, 99, 111, 110, 115, 116, 97, 110, 116], [101, 112, 115, 105, 108, 111, 110, 95, 48], [118, 97, 99, 117, 117, 109, 95, 112, 101, 114, 109, 105, 116, 116, 105, 118, 105, 116, 121], [99, 104, 97, 114, 97, 99, 116, 101, 114, 105, 115, 116, 105, 99, 95, 105, 109, 112, 101, 100, 97, 110, 99, 101, 95, 111, 102, 95, 118, 97, 99, 117, 117, 109], [90, 95, 48], [105, 109, 112, 101, 100, 101, 110, 99, 101, 95, 111, 102, 95, 102, 114, 101, 101, 95, 115, 112, 97, 99, 101], [99, 97, 110, 100, 101, 108, 97], [99, 100], [99, 97, 110, 100, 108, 101], [99, 97, 110, 100, 108, 101, 115], [99, 97, 110, 100, 101, 108, 97, 115]]
/-- class number and code points of the name -/
def k_t_electromagnetism : List (Nat × List Nat) := [(4, [97, 109, 112, 101, 114, 101]), (4, [109, 105, 108, 108, 105, 97, 109, 112, 101, 114, 101]), (4, [109, 105, 99, 114, 111, 97, 109, 112, 101, 114, 101]), (4, [110, 97, 110, 111, 97, 109, 112, 101, 114, 101]), (4, [112, 105, 99, 111, 97, 109, 112, 101, 114, 101]), (4, [97, 98, 97, 109, 112, 101, 114, 101]), (0, [115, 116, 97, 116, 99, 111, 117, 108, 111, 109, 98]), (4, [115, 116, 97, 116, 97, 109, 112, 101, 114, 101]), (0, [97, 109, 112, 101, 114, 101, 95, 116, 117, 114, 110]), (0, [103, 105, 108, 98, 101, 114, 116]), (0, [99, 111, 117, 108, 111, 109, 98]), (0, [109, 105, 108, 108, 105, 99, 111, 117, 108, 111, 109, 98]), (0, [109, 105, 99, 114, 111, 99, 111, 117, 108, 111, 109, 98]), (0, [118, 111, 108, 116]), (0, [107, 105, 108, 111, 118, 111, 108, 116]), (0, [109, 105, 108, 108, 105, 118, 111, 108, 116]), (0, [109, 105, 99, 114, 111, 118, 111, 108, 116]), (0, [102, 97, 114, 97, 100]), (0, [109, 105, 108, 108, 105, 102, 97, 114, 97, 100]), (0, [109, 105, 99, 114, 111, 102, 97, 114, 97, 100]), (0, [110, 97, 110, 111, 102, 97, 114, 97, 100]), (0, [112, 105, 99, 111, 102, 97, 114, 97, 100]), (0, [102, 101, 109, 116, 111, 102, 97, 114, 97, 100]), (0, [111, 104, 109]), (0, [107, 105, 108, 111, 111, 104, 109]), (0, [109, 101, 103, 97, 111, 104, 109]), (0, [115, 105, 101, 109, 101, 110, 115]), (0, [109, 105, 108, 108, 105, 115, 105, 101, 109, 101, 110, 115]), (0, [109, 105, 99, 114, 111, 115, 105, 101, 109, 101, 110, 115]), (0, [110, 97, 110, 111, 115, 105, 101, 109, 101, 110, 115]), (0, [112, 105, 99, 111, 115, 105, 101, 109, 101, 110, 115]), (0, [119, 101, 98, 101, 114]), (0, [116, 101, 115, 108, 97]), (0, [104, 101, 110, 114, 121]), (0, [97, 98, 102, 97, 114, 97, 100]), (0, [97, 98, 104, 101, 110, 114, 121]), (0, [97, 98, 109, 104, 111]), (0, [97, 98, 111, 104, 109]), (0, [97, 98, 118, 111, 108, 116]), (0, [101, 108, 101, 109, 101, 110, 116, 97, 114, 121, 95, 99, 104, 97, 114, 103, 101]), (0, [99, 104, 101, 109, 105, 99, 97, 108, 95, 102, 97, 114, 97, 100, 97, 121]), (0, [112, 104, 121, 115, 105, 99, 97, 108, 95, 102, 97, 114, 97, 100, 97, 121]), (0, [102, 97, 114, 97, 100, 97, 121]), (0, [103, 97, 109, 109, 97]), (0, [103, 97, 117, 115, 115]), (0, [109, 97, 120, 119, 101, 108, 108]), (0, [111, 101, 114, 115, 116, 101, 100]), (0, [115, 116, 97, 116, 102, 97, 114, 97, 100]), (0, [115, 116, 97, 116, 104, 101, 110, 114, 121]), (0, [115, 116, 97, 116, 109, 104, 111]), (0, [115, 116, 97, 116, 111, 104, 109]), (0, [115, 116, 97, 116, 118, 111, 108, 116]), (0, [117, 110, 105, 116, 95, 112, 111, 108, 101]), (0, [109, 97, 103, 110, 101, 116, 105, 99, 95, 99, 111, 110, 115, 116, 97, 110, 116]), (0, [101, 108, 101, 99, 116, 114, 105, 99, 95, 99, 111, 110, 115, 116, 97, 110, 116]), (0, [99, 104, 97, 114, 97, 99, 116, 101, 114, 105, 115, 116, 105, 99, 95, 105, 109, 112, 101, 100, 97, 110, 99, 101, 95, 111, 102, 95, 118, 97, 99, 117, 117, 109]), (5, [99, 97, 110, 100, 101, 108, 97])]
/-- twice the exponents in the base units -/
def d_t_electromagnetism : List (List Int) := [
  [0, 0, 0, 0, 2, 0, 0, 0],
  [0, 0, 0, 0, 2, 0, 0, 0],
  [0, 0, 0, 0, 2, 0, 0, 0],
  [0, 0, 0, 0, 2, 0, 0, 0],
  [0, 0, 0, 0, 2, 0, 0, 0],
  [0, 0, 0, 0, 2, 0, 0, 0],
  [-2, 3, 0, 1, 0, 0, 0, 0],
  [-4, 3, 0, 1, 0, 0, 0, 0],
  [0, 0, 0, 0, 2, 0, 0, 0],
  [0, 0, 0, 0, 2, 0, 0, 0],
  [2, 0, 0, 0, 2, 0, 0, 0],
  [2, 0, 0, 0, 2, 0, 0, 0],
  [2, 0, 0, 0, 2, 0, 0, 0],
  [-6, 4, 0, 2, -2, 0, 0, 0],
  [-6, 4, 0, 2, -2, 0, 0, 0],
  [-6, 4, 0, 2, -2, 0, 0, 0],
  [-6, 4, 0, 2, -2, 0, 0, 0],
  [8, -4, 0, -2, 4, 0, 0, 0],
  [8, -4, 0, -2, 4, 0, 0, 0],
  [8, -4, 0, -2, 4, 0, 0, 0],
  [8, -4, 0, -2, 4, 0, 0, 0],
  [8, -4, 0, -2, 4, 0, 0, 0],
  [8, -4, 0, -2, 4, 0, 0, 0],
  [-6, 4, 0, 2, -4, 0, 0, 0],
  [-6, 4, 0, 2, -4, 0, 0, 0],
  [-6, 4, 0, 2, -4, 0, 0, 0],
  [6, -4, 0, -2, 4, 0, 0, 0],
  [6, -4, 0, -2, 4, 0, 0, 0],
  [6, -4, 0, -2, 4, 0, 0, 0],
  [6, -4, 0, -2, 4, 0, 0, 0],
  [6, -4, 0, -2, 4, 0, 0, 0],
  [-4, 4, 0, 2, -2, 0, 0, 0],
  [-4, 0, 0, 2, -2, 0, 0, 0],
  [-4, 4, 0, 2, -4, 0, 0, 0],
  [8, -4, 0, -2, 4, 0, 0, 0],
  [-4, 4, 0, 2, -4, 0, 0, 0],
  [6, -4, 0, -2, 4, 0, 0, 0],
  [-6, 4, 0, 2, -4, 0, 0, 0],
  [-6, 4, 0, 2, -2, 0, 0, 0],
  [2, 0, 0, 0, 2, 0, 0, 0],
  [2, 0, 0, 0, 2, 0, 0, 0],
  [2, 0, 0, 0, 2, 0, 0, 0],
  [2, 0, 0, 0, 2, 0, 0, 0],
  [-4, 0, 0, 2, -2, 0, 0, 0],
  [-4, 0, 0, 2, -2, 0, 0, 0],
  [-4, 4, 0, 2, -2, 0, 0, 0],
  [0, -2, 0, 0, 2, 0, 0, 0],
  [8, -4, 0, -2, 4, 0, 0, 0],
  [-4, 4, 0, 2, -4, 0, 0, 0],
  [6, -4, 0, -2, 4, 0, 0, 0],
  [-6, 4, 0, 2, -4, 0, 0, 0],
  [-6, 4, 0, 2, -2, 0, 0, 0],
  [-4, 4, 0, 2, -2, 0, 0, 0],
  [-4, 2, 0, 2, -4, 0, 0, 0],
  [8, -6, 0, -2, 4, 0, 0, 0],
  [-6, 4, 0, 2, -4, 0, 0, 0],
  [0, 0, 0, 0, 0, 2, 0, 0]]

/-- code points of the labels -/
def l_t_frequency : List (List Nat) := [[104, 101, 114, 116, 122], [72, 122], [107, 105, 108, 111, 104, 101, 114, 116, 122], [107, 72, 122], [109, 101, 103, 97, 104, 101, 114, 116, 122], [77, 72, 122], [103, 105, 103, 97, 104, 101, 114, 116, 122], [71, 72, 122], [114, 101, 118, 111, 108, 117, 116, 105, 111, 110, 115, 95, 112, 101, 114, 95, 109, 105, 110, 117, 116, 101], [114, 112, 109], [99, 111, 117, 110, 116, 115, 95, 112, 101, 114, 95, 115, 101, 99, 111, 110, 100]]
/-- class number and code points of the name -/
def k_t_frequency : List (Nat × List Nat) := [(0, [104, 101, 114, 116, 122]), (0, [107, 105, 108, 111, 104, 101, 114, 116, 122]), (0, [109, 101, 103, 97, 104, 101, 114, 116, 122]), (0, [103, 105, 103, 97, 104, 101, 114, 116, 122]), (0, [114, 101, 118, 111, 108, 117, 116, 105, 111, 110, 115, 95, 112, 101, 114, 95, 109, 105, 110, 117, 116, 101]), (0, [99, 111, 117, 110, 116, 115, 95, 112, 101, 114, 95, 115, 101, 99, 111, 110, 100])]
/-- twice the exponents in the base units -/
def d_t_frequency : List (List Int) := [
  [-2, 0, 0, 0, 0, 0, 0, 0],
  [-2, 0, 0, 0, 0, 0, 0, 0],
  [-2, 0, 0, 0, 0, 0, 0, 0],
  [-2, 0, 0, 0, 0, 0, 0, 0],
  [-2, 0, 0, 0, 0, 0, 0, 0],
  [-2, 0, 0, 0, 0, 0, 0, 0]]

/-- code points of the labels -/
def l_t_temperature : List (List Nat) := [[75, 101, 108, 118, 105, 110], [75], [100, 101, 103, 75], [107, 101, 108, 118, 105, 110], [121, 111, 116, 116, 97, 107, 101, 108, 118, 105, 110], [89, 75], [122, 101, 116, 116, 97, 107, 101, 108, 118, 105, 110], [90, 75], [101, 120, 97, 107, 101, 108, 118, 105, 110], [69, 75], [112, 101, 116, 97, 107, 101, 108, 118, 105, 110], [80, 75], [116, 101, 114, 97, 107, 101, 108, 118, 105, 110], [84, 75], [103, 105, 103, 97, 107, 101, 108, 118, 105, 110], [71, 75], [109, 101, 103, 97, 107, 101, 108, 118, 105, 110], [77, 75], [107, 105, 108, 111, 107, 101, 108, 118, 105, 110], [107, 75], [104, 101, 99, 116, 111, 107, 101, 108, 118, 105, 110], [104, 75], [100, 101, 107, 97, 107, 101, 108, 118, 105, 110], [100, 97, 75], [100, 101, 99, 105, 107, 101, 108, 118, 105, 110], [100, 75], [99, 101, 110, 116, 105, 107, 101, 108, 118, 105, 110], [99, 75], [109, 105, 108, 108, 105, 107, 101, 108, 118, 105, 110], [109, 75], [109, 105, 99, 114, 111, 107, 101, 108, 118, 105, 110], [117, 75], [110, 97, 110, 111, 107, 101, 108, 118, 105, 110], [110, 75], [112, 105, 99, 111, 107, 101, 108, 118, 105, 110], [112, 75], [102, 101, 109, 116, 111, 107, 101, 108, 118, 105, 110], [102, 75], [97, 116, 116, 111, 107, 101, 108, 118, 105, 110], [97, 75], [122, 101, 112, 116, 111, 107, 101, 108, 118, 105, 110], [122, 75], [121, 111, 99, 116, 111, 107, 101, 108, 118, 105, 110], [121, 75], [82, 97, 110, 107, 105, 110, 101], [100, 101, 103, 82], [114, 97, 110, 107, 105, 110, 101], [67, 101, 108, 115, 105, 117, 115], [100, 101, 103, 67], [99, 101, 108, 115, 105, 117, 115], [70, 97, 104, 114, 101, 110, 104, 101, 105, 116], [100, 101, 103, 70], [102, 97, 104, 114, 101, 110, 104, 101, 105, 116]]
/-- class number and code points of the name -/
def k_t_temperature : List (Nat × List Nat) := [(7, [75, 101, 108, 118, 105, 110]), (7, [121, 111, 116, 116, 97, 107, 101, 108, 118, 105, 110]), (7, [122, 101, 116, 116, 97, 107, 101, 108, 118, 105, 110]), (7, [101, 120, 97, 107, 101, 108, 118, 105, 110]), (7, [112, 101, 116, 97, 107, 101, 108, 118, 105, 110]), (7, [116, 101, 114, 97, 107, 101, 108, 118, 105, 110]), (7, [103, 105, 103, 97, 107, 101, 108, 118, 105, 110]), (7, [109, 101, 103, 97, 107, 101, 108, 118, 105, 110]), (7, [107, 105, 108, 111, 107, 101, 108, 118, 105, 110]), (7, [104, 101, 99, 116, 111, 107, 101, 108, 118, 105, 110]), (7, [100, 101, 107, 97, 107, 101, 108, 118, 105, 110]), (7, [100, 101, 99, 105, 107, 101, 108, 118, 105, 110]), (7, [99, 101, 110, 116, 105, 107, 101, 108, 118, 105, 110]), (7, [109, 105, 108, 108, 105, 107, 101, 108, 118, 105, 110]), (7, [109, 105, 99, 114, 111, 107, 101, 108, 118, 105, 110]), (7, [110, 97, 110, 111, 107, 101, 108, 118, 105, 110]), (7, [112, 105, 99, 111, 107, 101, 108, 118, 105, 110]), (7, [102, 101, 109, 116, 111, 107, 101, 108, 118, 105, 110]), (7, [97, 116, 116, 111, 107, 101, 108, 118, 105, 110]), (7, [122, 101, 112, 116, 111, 107, 101, 108, 118, 105, 110]), (7, [121, 111, 99, 116, 111, 107, 101, 108, 118, 105, 110]), (7, [82, 97, 110, 107, 105, 110, 101]), (7, [67, 101, 108, 115, 105, 117, 115]), (7, [70, 97, 104, 114, 101, 110, 104, 101, 105, 116])]
/-- twice the exponents in the base units -/
def d_t_temperature : List (List Int) := [
  [0, 0, 0, 0, 0, 0, 2, 0],
  [0, 0, 0, 0, 0, 0, 2, 0],
  [0, 0, 0, 0, 0, 0, 2, 0],
  [0, 0, 0, 0, 0, 0, 2, 0],
  [0, 0, 0, 0, 0, 0, 2, 0],
  [0, 0, 0, 0, 0, 0, 2, 0],
  [0, 0, 0, 0, 0, 0, 2, 0],
  [0, 0, 0, 0, 0, 0, 2, 0],
  [0, 0, 0, 0, 0, 0, 2, 0],
  [0, 0, 0, 0, 0, 0, 2, 0],
  [0, 0, 0, 0, 0, 0, 2, 0],
  [0, 0, 0, 0, 0, 0, 2, 0],
  [0, 0, 0, 0, 0, 0, 2, 0],
  [0, 0, 0, 0, 0, 0, 2, 0],
  [0, 0, 0, 0, 0, 0, 2, 0],
  [0, 0, 0, 0, 0, 0, 2, 0],
  [0, 0, 0, 0, 0, 0, 2, 0],
  [0, 0, 0, 0, 0, 0, 2, 0],
  [0, 0, 0, 0, 0, 0, 2, 0],
  [0, 0, 0, 0, 0, 0, 2, 0],
  [0, 0, 0, 0, 0, 0, 2, 0],
  [0, 0, 0, 0, 0, 0, 2, 0],
  [0, 0, 0, 0, 0, 0, 2, 0],
  [0, 0, 0, 0, 0, 0, 2, 0]]

/-- code points of the labels -/
def l_t_power : List (List Nat) := [[119, 97, 116, 116], [87], [119, 97, 116, 116, 115], [118, 111, 108, 116, 95, 97, 109, 112, 101, 114, 101], [118, 111, 108, 116, 95, 97, 109, 112, 101, 114, 101, 115], [86, 65], [109, 105, 108, 108, 105, 119, 97, 116, 116], [109, 87], [109, 105, 108, 108, 105, 119, 97, 116, 116, 115], [107, 105, 108, 111, 119, 97, 116, 116], [107, 87], [107, 105, 108, 111, 119, 97, 116, 116, 115], [109, 101, 103, 97, 119, 97, 116, 116], [77, 87], [109, 101, 103, 97, 119, 97, 116, 116, 115], [104, 111, 114, 115, 101, 112, 111, 119, 101, 114], [104, 112], [85, 75, 95, 104, 111, 114, 115, 101, 112, 111, 119, 101, 114], [66, 114, 105, 116, 105, 115, 104, 95, 104, 111, 114, 115, 101, 112, 111, 119, 101, 114], [98, 111, 105, 108, 101, 114, 95, 104, 111, 114, 115, 101, 112, 111, 119, 101, 114], [109, 101, 116, 114, 105, 99, 95, 104, 111, 114, 115, 101, 112, 111, 119, 101, 114], [101, 108, 101, 99, 116, 114, 105, 99, 95, 104, 111, 114, 115, 101, 112, 111, 119, 101, 114], [119, 97, 116, 101, 114, 95, 104, 111, 114, 115, 101, 112, 111, 119, 101, 114], [114, 101, 102, 114, 105, 103, 101, 114, 97, 116, 105, 111, 110, 95, 116, 111, 110], [116, 111, 110, 95, 111, 102, 95, 114, 101, 102, 114, 105, 103, 101, 114, 97, 116, 105, 111, 110]]
/-- class number and code points of the name -/
def k_t_power : List (Nat × List Nat) := [(0, [119, 97, 116, 116]), (0, [109, 105, 108, 108, 105, 119, 97, 116, 116]), (0, [107, 105, 108, 111, 119, 97, 116, 116]), (0, [109, 101, 103, 97, 119, 97, 116, 116]), (0, [104, 111, 114, 115, 101, 112, 111, 119, 101, 114]), (0, [98, 111, 105, 108, 101, 114, 95, 104, 111, 114, 115, 101, 112, 111, 119, 101, 114]), (0, [109, 101, 116, 114, 105, 99, 95, 104, 111, 114, 115, 101, 112, 111, 119, 101, 114]), (0, [101, 108, 101, 99, 116, 114, 105, 99, 95, 104, 111, 114, 115, 101, 112, 111, 119, 101, 114]), (0, [119, 97, 116, 101, 114, 95, 104, 111, 114, 115, 101, 112, 111, 119, 101, 114]), (0, [114, 101, 102, 114, 105, 103, 101, 114, 97, 116, 105, 111, 110, 95, 116, 111, 110])]
/-- twice the exponents in the base units -/
def d_t_power : List (List Int) := [
  [-6, 4, 0, 2, 0, 0, 0, 0],
  [-6, 4, 0, 2, 0, 0, 0, 0],
  [-6, 4, 0, 2, 0, 0, 0, 0],
  [-6, 4, 0, 2, 0, 0, 0, 0],
  [-6, 4, 0, 2, 0, 0, 0, 0],
  [-6, 4, 0, 2, 0, 0, 0, 0],
  [-6, 4, 0, 2, 0, 0, 0, 0],
  [-6, 4, 0, 2, 0, 0, 0, 0],
  [-6, 4, 0, 2, 0, 0, 0, 0],
  [-6, 4, 0, 2, 0, 0, 0, 0]]

/-- code points of the labels -/
def l_t_heat : List (List Nat) := [[82, 83, 73], [99, 108, 111], [99, 108, 111, 115], [82, 95, 118, 97, 108, 117, 101]]
/-- class number and code points of the name -/
def k_t_heat : List (Nat × List Nat) := [(0, [82, 83, 73]), (0, [99, 108, 111]), (0, [82, 95, 118, 97, 108, 117, 101])]
/-- twice the exponents in the base units -/
def d_t_heat : List (List Int) := [
  [6, 0, 0, -2, 0, 0, 2, 0],
  [6, 0, 0, -2, 0, 0, 2, 0],
  [6, 0, 0, -2, 0, 0, 2, 0]]

/-- code points of the labels -/
def l_t_information : List (List Nat) := [[98, 105, 116], [98, 105, 116, 115], [98, 121, 116, 101], [66], [98, 121, 116, 101, 115], [111], [111, 99, 116, 101, 116], [111, 99, 116, 101, 116, 115], [107, 105, 108, 111, 98, 121, 116, 101], [107, 66], [107, 105, 108, 111, 98, 121, 116, 101, 115], [107, 105, 108, 111, 111, 99, 116, 101, 116], [107, 105, 108, 111, 111, 99, 116, 101, 116, 115], [109, 101, 103, 97, 98, 121, 116, 101], [77, 66], [109, 101, 103, 97, 98, 121, 116, 101, 115], [109, 101, 103, 97, 111, 99, 116, 101, 116], [109, 101, 103, 97, 111, 99, 116, 101, 116, 115], [103, 105, 103, 97, 98, 121, 116, 101], [71, 66], [103, 105, 103, 97, 98, 121, 116, 101, 115], [103, 105, 103, 97, 111, 99, 116, 101, 116], [103, 105, 103, 97, 111, 99, 116, 101, 116, 115], [116, 101, 114, 97, 98, 121, 116, 101], [84, 66], [116, 101, 114, 97, 98, 121, 116, 101, 115], [116, 101, 114, 97, 111, 99, 116, 101, 116], [116, 101, 114, 97, 111, 99, 116, 101, 116, 115], [112, 101, 116, 97, 98, 121, 116, 101], [80, 66], [112, 101, 116, 97, 98, 121, 116, 101, 115], [112, 101, 116, 97, 111, 99, 116, 101, 116], [112, 101, 116, 97, 111, 99, 116, 101, 116, 115], [101, 120, 97, 98, 121, 116, 101], [69, 66], [101, 120, 97, 98, 121, 116, 101, 115], [101, 120, 97, 111, 99, 116, 101, 116], [101, 120, 97, 111, 99, 116, 101, 116, 115], [122, 101, 116, 116, 97, 98, 121, 116, 101], [90, 66], [122, 101, 116, 116, 97, 98, 121, 116, 101, 115], [122, 101, 116, 116, 97, 111, 99, 116, 101, 116], [122, 101, 116, 116, 97, 111, 99, 116, 101, 116, 115], [121, 111, 116, 116, 97, 98, 121, 116, 101], [89, 66], [121, 111, 116, 116, 97, 98, 121, 116, 101, 115], [121, 111, 116, 116, 97, 111, 99, 116, 101, 116], [121, 111, 116, 116, 97, 111, 99, 116, 101, 116, 115], [98, 97, 117, 100], [66, 100], [107, 105, 98, 105, 98, 121, 116, 101], [75, 105, 66], [107, 105, 98, 105, 98, 121, 116, 101, 115], [107, 105, 98, 105, 111, 99, 116, 101, 116], [107, 105, 98, 105, 111, 99, 116, 101, 116, 115], [109, 101, 98, 105, 98, 121, 116, 101], [77, 105, 66], [109, 101, 98, 105, 98, 121, 116, 101, 115], [109, 101, 98, 105, 111, 99, 116, 101, 116], [109, 101, 98, 105, 111, 99, 116, 101, 116, 115], [103, 105, 98, 105, 98, 121, 116, 101], [71, 105, 66], [103, 105, 98, 105, 98, 121, 116, 101, 115], [103, 105, 98, 105, 111, 99, 116, 101, 116], [103, 105, 98, 105, 111, 99, 116, 101, 116, 115], [116, 101, 98, 105, 98, 121, 116, 101], [84, 105, 66], [116, 101, 98, 105, 98, 121, 116, 101, 115], [116, 101, 98, 105, 111, 99, 116, 101, 116], [116, 101, 98, 105, 111, 99, 116, 101, 116, 115], [112, 101, 98, 105, 98, 121, 116, 101], [80, 105, 66], [112, 101, 98, 105, 98, 121, 116, 101, 115], [112, 101, 98, 105, 111, 99, 116, 101, 116], [112, 101, 98, 105, 111, 99, 116, 101, 116, 115], [101, 120, 98, 105, 98, 121, 116, 101], [69, 105, 66], [101, 120, 98, 105, 98, 121, 116, 101, 115], [101, 120, 98, 105, 111, 99, 116, 101, 116], [101, 120, 98, 105, 111, 99, 116, 101, 116, 115], [122, 101, 98, 105, 98, 121, 116, 101], [90, 105, 66], [122, 101, 98, 105, 98, 121, 116, 101, 115], [122, 101, 98, 105, 111, 99, 116, 101, 116], [122, 101, 98, 105, 111, 99, 116, 101, 116, 115], [121, 111, 98, 105, 98, 121, 116, 101], [89, 105, 66], [121, 111, 98, 105, 98, 121, 116, 101, 115], [121, 111, 98, 105, 111, 99, 116, 101, 116], [121, 111, 98, 105, 111, 99, 116, 101, 116, 115]]
/-- class number and code points of the name -/
def k_t_information : List (Nat × List Nat) := [(8, [98, 105, 116]), (8, [98, 121, 116, 101]), (8, [107, 105, 108, 111, 98, 121, 116, 101]), (8, [109, 101, 103, 97, 98, 121, 116, 101]), (8, [103, 105, 103, 97, 98, 121, 116, 101]), (8, [116, 101, 114, 97, 98, 121, 116, 101]), (8, [112, 101, 116, 97, 98, 121, 116, 101]), (8, [101, 120, 97, 98, 121, 116, 101]), (8, [122, 101, 116, 116, 97, 98, 121, 116, 101]), (8, [121, 111, 116, 116, 97, 98, 121, 116, 101]), (0, [98, 97, 117, 100]), (8, [107, 105, 98, 105, 98, 121, 116, 101]), (8, [109, 101, 98, 105, 98, 121, 116, 101]), (8, [103, 105, 98, 105, 98, 121, 116, 101]), (8, [116, 101, 98, 105, 98, 121, 116, 101]), (8, [112, 101, 98, 105, 98, 121, 116, 101]), (8, [101, 120, 98, 105, 98, 121, 116, 101]), (8, [122, 101, 98, 105, 98, 121, 116, 101]), (8, [121, 111, 98, 105, 98, 121, 116, 101])]
/-- twice the exponents in the base units -/
def d_t_information : List (List Int) := [
  [0, 0, 0, 0, 0, 0, 0, 2],
  [0, 0, 0, 0, 0, 0, 0, 2],
  [0, 0, 0, 0, 0, 0, 0, 2],
  [0, 0, 0, 0, 0, 0, 0, 2],
  [0, 0, 0, 0, 0, 0, 0, 2],
  [0, 0, 0, 0, 0, 0, 0, 2],
  [0, 0, 0, 0, 0, 0, 0, 2],
  [0, 0, 0, 0, 0, 0, 0, 2],
  [0, 0, 0, 0, 0, 0, 0, 2],
  [0, 0, 0, 0, 0, 0, 0, 2],
  [-2, 0, 0, 0, 0, 0, 0, 2],
  [0, 0, 0, 0, 0, 0, 0, 2],
  [0, 0, 0, 0, 0, 0, 0, 2],
  [0, 0, 0, 0, 0, 0, 0, 2],
  [0, 0, 0, 0, 0, 0, 0, 2],
  [0, 0, 0, 0, 0, 0, 0, 2],
  [0, 0, 0, 0, 0, 0, 0, 2],
  [0, 0, 0, 0, 0, 0, 0, 2],
  [0, 0, 0, 0, 0, 0, 0, 2]]

/-- code points of the labels -/
def l_t_pressure : List (List Nat) := [[99, 111, 110, 118, 101, 110, 116, 105, 111, 110, 97, 108, 95, 109, 101, 114, 99, 117, 114, 121], [109, 101, 114, 99, 117, 114, 121, 95, 54, 48, 70], [72, 50, 79], [119, 97, 116, 101, 114, 95, 52, 67], [119, 97, 116, 101, 114, 95, 54, 48, 70], [112, 97, 115, 99, 97, 108], [80, 97], [112, 97, 115, 99, 97, 108, 115], [104, 101, 99, 116, 111, 112, 97, 115, 99, 97, 108], [104, 80, 97], [107, 105, 108, 111, 112, 97, 115, 99, 97, 108], [107, 80, 97], [107, 105, 108, 111, 112, 97, 115, 99, 97, 108, 115], [109, 101, 103, 97, 112, 97, 115, 99, 97, 108], [77, 80, 97], [109, 101, 103, 97, 112, 97, 115, 99, 97, 108, 115], [103, 105, 103, 97, 112, 97, 115, 99, 97, 108], [71, 80, 97], [103, 105, 103, 97, 112, 97, 115, 99, 97, 108, 115], [98, 97, 114], [98, 97, 114, 115], [109, 105, 108, 108, 105, 98, 97, 114], [109, 98, 97, 114], [109, 105, 108, 108, 105, 98, 97, 114, 115], [107, 105, 108, 111, 98, 97, 114], [107, 98, 97, 114], [107, 105, 108, 111, 98, 97, 114, 115], [109, 101, 103, 97, 98, 97, 114], [77, 98, 97, 114], [109, 101, 103, 97, 98, 97, 114, 115], [103, 105, 103, 97, 98, 97, 114], [71, 98, 97, 114], [103, 105, 103, 97, 98, 97, 114, 115], [115, 116, 97, 110, 100, 97, 114, 100, 95, 97, 116, 109, 111, 115, 112, 104, 101, 114, 101], [97, 116, 109], [97, 116, 109, 111, 115, 112, 104, 101, 114, 101], [97, 116, 109, 111, 115, 112, 104, 101, 114, 101, 115], [115, 116, 97, 110, 100, 97, 114, 100, 95, 97, 116, 109, 111, 115, 112, 104, 101, 114, 101, 115], [116, 101, 99, 104, 110, 105, 99, 97, 108, 95, 97, 116, 109, 111, 115, 112, 104, 101, 114, 101], [97, 116], [116, 101, 99, 104, 110, 105, 99, 97, 108, 95, 97, 116, 109, 111, 115, 112, 104, 101, 114, 101, 115], [116, 111, 114, 114], [112, 111, 117, 110, 100, 95, 102, 111, 114, 99, 101, 95, 112, 101, 114, 95, 115, 113, 117, 97, 114, 101, 95, 105, 110, 99, 104], [112, 115, 105], [107, 105, 112, 95, 112, 101, 114, 95, 115, 113, 117, 97, 114, 101, 95, 105, 110, 99, 104], [107, 115, 105], [98, 97, 114, 121, 101], [66, 97], [98, 97, 114, 105, 101], [98, 97, 114, 105, 101, 115], [98, 97, 114, 121, 101, 115], [98, 97, 114, 97, 100], [98, 97, 114, 97, 100, 115], [98, 97, 114, 114, 105, 101], [98, 97, 114, 121, 100], [98, 97, 114, 121, 101, 100], [109, 105, 108, 108, 105, 109, 101, 116, 101, 114, 95, 72, 103], [109, 109, 72, 103], [109, 109, 95, 72, 103], [109, 105, 108, 108, 105, 109, 101, 116, 101, 114, 95, 72, 103, 95, 48, 67], [99, 109, 72, 103], [99, 109, 95, 72, 103], [99, 101, 110, 116, 105, 109, 101, 116, 101, 114, 95, 72, 103], [105, 110, 72, 103], [105, 110, 95, 72, 103], [105, 110, 99, 104, 95, 72, 103], [105, 110, 99, 104, 95, 72, 103, 95, 51, 50, 70], [105, 110, 99, 104, 95, 72, 103, 95, 54, 48, 70], [105, 110, 99, 104, 95, 72, 50, 79, 95, 51, 57, 70], [105, 110, 99, 104, 95, 72, 50, 79, 95, 54, 48, 70], [102, 111, 111, 116, 72, 50, 79], [99, 109, 72, 50, 79], [102, 111, 111, 116, 95, 72, 50, 79], [102, 116, 72, 50, 79]]
/-- class number and code points of the name -/
def k_t_pressure : List (Nat × List Nat) := [(0, [99, 111, 110, 118, 101, 110, 116, 105, 111, 110, 97, 108, 95, 109, 101, 114, 99, 117, 114, 121]), (0, [109, 101, 114, 99, 117, 114, 121, 95, 54, 48, 70]), (0, [72, 50, 79]), (0, [119, 97, 116, 101, 114, 95, 52, 67]), (0, [119, 97, 116, 101, 114, 95, 54, 48, 70]), (0, [112, 97, 115, 99, 97, 108]), (0, [104, 101, 99, 116, 111, 112, 97, 115, 99, 97, 108]), (0, [107, 105, 108, 111, 112, 97, 115, 99, 97, 108]), (0, [109, 101, 103, 97, 112, 97, 115, 99, 97, 108]), (0, [103, 105, 103, 97, 112, 97, 115, 99, 97, 108]), (0, [98, 97, 114]), (0, [109, 105, 108, 108, 105, 98, 97, 114]), (0, [107, 105, 108, 111, 98, 97, 114]), (0, [109, 101, 103, 97, 98, 97, 114]), (0, [103, 105, 103, 97, 98, 97, 114]), (0, [115, 116, 97, 110, 100, 97, 114, 100, 95, 97, 116, 109, 111, 115, 112, 104, 101, 114, 101]), (0, [116, 101, 99, 104, 110, 105, 99, 97, 108, 95, 97, 116, 109, 111, 115, 112, 104, 101, 114, 101]), (0, [116, 111, 114, 114]), (0, [112, 111, 117, 110, 100, 95, 102, 111, 114, 99, 101, 95, 112, 101, 114, 95, 115, 113, 117, 97, 114, 101, 95, 105, 110, 99, 104]), (0, [107, 105, 112, 95, 112, 101, 114, 95, 115, 113, 117, 97, 114, 101, 95, 105, 110, 99, 104]), (0, [98, 97, 114, 121, 101]), (0, [109, 105, 108, 108, 105, 109, 101, 116, 101, 114, 95, 72, 103]), (0, [99, 109, 72, 103]), (0, [105, 110, 72, 103]), (0, [105, 110, 99, 104, 95, 72, 103, 95, 54, 48, 70]), (0, [105, 110, 99, 104, 95, 72, 50, 79, 95, 51, 57, 70]), (0, [105, 110, 99, 104, 95, 72, 50, 79, 95, 54, 48, 70]), (0, [102, 111, 111, 116, 72, 50, 79]), (0, [99, 109, 72, 50, 79]), (0, [102, 111, 111, 116, 95, 72, 50, 79])]
/-- twice the exponents in the base units -/
def d_t_pressure : List (List Int) := [
  [-4, -4, 0, 2, 0, 0, 0, 0],
  [-4, -4, 0, 2, 0, 0, 0, 0],
  [-4, -4, 0, 2, 0, 0, 0, 0],
  [-4, -4, 0, 2, 0, 0, 0, 0],
  [-4, -4, 0, 2, 0, 0, 0, 0],
  [-4, -2, 0, 2, 0, 0, 0, 0],
  [-4, -2, 0, 2, 0, 0, 0, 0],
  [-4, -2, 0, 2, 0, 0, 0, 0],
  [-4, -2, 0, 2, 0, 0, 0, 0],
  [-4, -2, 0, 2, 0, 0, 0, 0],
  [-4, -2, 0, 2, 0, 0, 0, 0],
  [-4, -2, 0, 2, 0, 0, 0, 0],
  [-4, -2, 0, 2, 0, 0, 0, 0],
  [-4, -2, 0, 2, 0, 0, 0, 0],
  [-4, -2, 0, 2, 0, 0, 0, 0],
  [-4, -2, 0, 2, 0, 0, 0, 0],
  [-4, -2, 0, 2, 0, 0, 0, 0],
  [-4, -2, 0, 2, 0, 0, 0, 0],
  [-4, -2, 0, 2, 0, 0, 0, 0],
  [-4, -2, 0, 2, 0, 0, 0, 0],
  [-4, -2, 0, 2, 0, 0, 0, 0],
  [-4, -2, 0, 2, 0, 0, 0, 0],
  [-4, -2, 0, 2, 0, 0, 0, 0],
  [-4, -2, 0, 2, 0, 0, 0, 0],
  [-4, -2, 0, 2, 0, 0, 0, 0],
  [-4, -2, 0, 2, 0, 0, 0, 0],
  [-4, -2, 0, 2, 0, 0, 0, 0],
  [-4, -2, 0, 2, 0, 0, 0, 0],
  [-4, -2, 0, 2, 0, 0, 0, 0],
  [-4, -2, 0, 2, 0, 0, 0, 0]]

/-- code points of the labels -/
def l_t_radiation : List (List Nat) := [[98, 101, 99, 113, 117, 101, 114, 101, 108], [66, 113], [98, 101, 99, 113, 117, 101, 114, 101, 108, 115], [99, 117, 114, 105, 101], [67, 105], [99, 117, 114, 105, 101, 115], [114, 117, 116, 104, 101, 114, 102, 111, 114, 100], [82, 100], [114, 117, 116, 104, 101, 114, 102, 111, 114, 100, 115], [103, 114, 97, 121], [71, 121], [103, 114, 97, 121, 115], [83, 118], [115, 105, 101, 118, 101, 114, 116], [115, 105, 101, 118, 101, 114, 116, 115], [114, 101, 109], [114, 101, 109, 115], [114, 97, 100, 115], [114, 111, 101, 110, 116, 103, 101, 110], [82], [114, 111, 101, 110, 116, 103, 101, 110, 115]]
/-- class number and code points of the name -/
def k_t_radiation : List (Nat × List Nat) := [(0, [98, 101, 99, 113, 117, 101, 114, 101, 108]), (0, [99, 117, 114, 105, 101]), (0, [114, 117, 116, 104, 101, 114, 102, 111, 114, 100]), (0, [103, 114, 97, 121]), (0, [114, 101, 109]), (0, [114, 97, 100, 115]), (0, [114, 111, 101, 110, 116, 103, 101, 110])]
/-- twice the exponents in the base units -/
def d_t_radiation : List (List Int) := [
  [-2, 0, 0, 0, 0, 0, 0, 0],
  [-2, 0, 0, 0, 0, 0, 0, 0],
  [-2, 0, 0, 0, 0, 0, 0, 0],
  [-4, 4, 0, 0, 0, 0, 0, 0],
  [-4, 4, 0, 0, 0, 0, 0, 0],
  [-4, 4, 0, 0, 0, 0, 0, 0],
  [2, 0, 0, -2, 2, 0, 0, 0]]

/-- code points of the labels -/
def l_t_viscosity : List (List Nat) := [[112, 111, 105, 115, 101], [80], [99, 101, 110, 116, 105, 112, 111, 105, 115, 101], [99, 80], [115, 116, 111, 107, 101, 115], [83, 116], [114, 104, 101]]
/-- class number and code points of the name -/
def k_t_viscosity : List (Nat × List Nat) := [(0, [112, 111, 105, 115, 101]), (0, [99, 101, 110, 116, 105, 112, 111, 105, 115, 101]), (0, [115, 116, 111, 107, 101, 115]), (0, [114, 104, 101])]
/-- twice the exponents in the base units -/
def d_t_viscosity : List (List Int) := [
  [-2, -2, 0, 2, 0, 0, 0, 0],
  [-2, -2, 0, 2, 0, 0, 0, 0],
  [-2, 4, 0, 0, 0, 0, 0, 0],
  [2, 2, 0, -2, 0, 0, 0, 0]]

/-- code points of the labels -/
def l_c_alpha : List (List Nat) := []
/-- class number and code points of the name -/
def k_c_alpha : List (Nat × List Nat) := [(12, [97, 108, 112, 104, 97, 95, 112, 97, 114, 116, 105, 99, 108, 101, 95, 109, 97, 115, 115]), (12, [97, 108, 112, 104, 97, 95, 112, 97, 114, 116, 105, 99, 108, 101, 95, 109, 97, 115, 115, 95, 101, 110, 101, 114, 103, 121, 95, 101, 113, 117, 105, 118, 97, 108, 101, 110, 116]), (12, [97, 108, 112, 104, 97, 95, 112, 97, 114, 116, 105, 99, 108, 101, 95, 109, 97, 115, 115, 95, 101, 110, 101, 114, 103, 121, 95, 101, 113, 117, 105, 118, 97, 108, 101, 110, 116, 95, 105, 110, 95, 77, 101, 86]), (12, [97, 108, 112, 104, 97, 95, 112, 97, 114, 116, 105, 99, 108, 101, 95, 109, 97, 115, 115, 95, 105, 110, 95, 117]), (12, [97, 108, 112, 104, 97, 95, 112, 97, 114, 116, 105, 99, 108, 101, 95, 109, 111, 108, 97, 114, 95, 109, 97, 115, 115]), (12, [97, 108, 112, 104, 97, 95, 112, 97, 114, 116, 105, 99, 108, 101, 95, 101, 108, 101, 99, 116, 114, 111, 110, 95, 109, 97, 115, 115, 95, 114, 97, 116, 105, 111]), (12, [97, 108, 112, 104, 97, 95, 112, 97, 114, 116, 105, 99, 108, 101, 95, 112, 114, 111, 116, 111, 110, 95, 109, 97, 115, 115, 95, 114, 97, 116, 105, 111])]
/-- twice the exponents in the base units -/
def d_c_alpha : List (List Int) := [
  [0, 0, 0, 2, 0, 0, 0, 0],
  [-4, 4, 0, 2, 0, 0, 0, 0],
  [-4, 4, 0, 2, 0, 0, 0, 0],
  [0, 0, 0, 2, 0, 0, 0, 0],
  [0, 0, -2, 2, 0, 0, 0, 0],
  [0, 0, 0, 0, 0, 0, 0, 0],
  [0, 0, 0, 0, 0, 0, 0, 0]]

/-- code points of the labels -/
def l_c_astronomy : List (List Nat) := []
/-- class number and code points of the name -/
def k_c_astronomy : List (Nat × List Nat) := [(12, [97, 115, 116, 114, 111, 110, 111, 109, 105, 99, 97, 108, 95, 117, 110, 105, 116]), (12, [78, 101, 119, 116, 111, 110, 105, 97, 110, 95, 99, 111, 110, 115, 116, 97, 110, 116, 95, 111, 102, 95, 103, 114, 97, 118, 105, 116, 97, 116, 105, 111, 110])]
/-- twice the exponents in the base units -/
def d_c_astronomy : List (List Int) := [
  [0, 2, 0, 0, 0, 0, 0, 0],
  [-4, 6, 0, -2, 0, 0, 0, 0]]

/-- code points of the labels -/
def l_c_atomicunits : List (List Nat) := []
/-- class number and code points of the name -/
def k_c_atomicunits : List (Nat × List Nat) := [(12, [97, 116, 111, 109, 105, 99, 95, 109, 97, 115, 115, 95, 99, 111, 110, 115, 116, 97, 110, 116]), (12, [97, 116, 111, 109, 105, 99, 95, 117, 110, 105, 116, 95, 111, 102, 95, 49, 115, 116, 95, 104, 121, 112, 101, 114, 112, 111, 108, 97, 114, 105, 122, 97, 98, 105, 108, 105, 116, 121]), (12, [97, 116, 111, 109, 105, 99, 95, 117, 110, 105, 116, 95, 111, 102, 95, 50, 110, 100, 95, 104, 121, 112, 101, 114, 112, 111, 108, 97, 114, 105, 122, 97, 98, 105, 108, 105, 116, 121]), (12, [97, 116, 111, 109, 105, 99, 95, 117, 110, 105, 116, 95, 111, 102, 95, 97, 99, 116, 105, 111, 110]), (12, [97, 116, 111, 109, 105, 99, 95, 117, 110, 105, 116, 95, 111, 102, 95, 99, 104, 97, 114, 103, 101]), (12, [97, 116, 111, 109, 105, 99, 95, 117, 110, 105, 116, 95, 111, 102, 95, 99, 104, 97, 114, 103, 101, 95, 100, 101, 110, 115, 105, 116, 121]), (12, [97, 116, 111, 109, 105, 99, 95, 117, 110, 105, 116, 95, 111, 102, 95, 99, 117, 114, 114, 101, 110, 116]), (12, [97, 116, 111, 109, 105, 99, 95, 117, 110, 105, 116, 95, 111, 102, 95, 101, 108, 101, 99, 116, 114, 105, 99, 95, 100, 105, 112, 111, 108, 101, 95, 109, 111, 109, 101, 110, 116]), (12, [97, 116, 111, 109, 105, 99, 95, 117, 110, 105, 116, 95, 111, 102, 95, 101, 108, 101, 99, 116, 114, 105, 99, 95, 102, 105, 101, 108, 100]), (12, [97, 116, 111, 109, 105, 99, 95, 117, 110, 105, 116, 95, 111, 102, 95, 101, 108, 101, 99, 116, 114, 105, 99, 95, 102, 105, 101, 108, 100, 95, 103, 114, 97, 100, 105, 101, 110, 116]), (12, [97, 116, 111, 109, 105, 99, 95, 117, 110, 105, 116, 95, 111, 102, 95, 101, 108, 101, 99, 116, 114, 105, 99, 95, 112, 111, 108, 97, 114, 105, 122, 97, 98, 105, 108, 105, 116, 121]), (12, [97, 116, 111, 109, 105, 99, 95, 117, 110, 105, 116, 95, 111, 102, 95, 101, 108, 101, 99, 116, 114, 105, 99, 95, 112, 111, 116, 101, 110, 116, 105, 97, 108]), (12, [97, 116, 111, 109, 105, 99, 95, 117, 110, 105, 116, 95, 111, 102, 95, 101, 108, 101, 99, 116, 114, 105, 99, 95, 113, 117, 97, 100, 114, 117, 112, 111, 108, 101, 95, 109, 111, 109, 101, 110, 116]), (12, [97, 116, 111, 109, 105, 99, 95, 117, 110, 105, 116, 95, 111, 102, 95, 101, 110, 101, 114, 103, 121]), (12, [97, 116, 111, 109, 105, 99, 95, 117, 110, 105, 116, 95, 111, 102, 95, 102, 111, 114, 99, 101]), (12, [97, 116, 111, 109, 105, 99, 95, 117, 110, 105, 116, 95, 111, 102, 95, 108, 101, 110, 103, 116, 104]), (12, [66, 111, 104, 114, 95, 114, 97, 100, 105, 117, 115]), (12, [97, 116, 111, 109, 105, 99, 95, 117, 110, 105, 116, 95, 111, 102, 95, 109, 97, 103, 110, 101, 116, 105, 99, 95, 100, 105, 112, 111, 108, 101, 95, 109, 111, 109, 101, 110, 116]), (12, [97, 116, 111, 109, 105, 99, 95, 117, 110, 105, 116, 95, 111, 102, 95, 109, 97, 103, 110, 101, 116, 105, 99, 95, 102, 108, 117, 120, 95, 100, 101, 110, 115, 105, 116, 121]), (12, [97, 116, 111, 109, 105, 99, 95, 117, 110, 105, 116, 95, 111, 102, 95, 109, 97, 103, 110, 101, 116, 105, 122, 97, 98, 105, 108, 105, 116, 121]), (12, [97, 116, 111, 109, 105, 99, 95, 117, 110, 105, 116, 95, 111, 102, 95, 109, 97, 115, 115]), (12, [97, 116, 111, 109, 105, 99, 95, 117, 110, 105, 116, 95, 111, 102, 95, 109, 111, 109, 101, 110, 116, 117, 109]), (12, [97, 116, 111, 109, 105, 99, 95, 117, 110, 105, 116, 95, 111, 102, 95, 112, 101, 114, 109, 105, 116, 116, 105, 118, 105, 116, 121]), (12, [97, 116, 111, 109, 105, 99, 95, 117, 110, 105, 116, 95, 111, 102, 95, 116, 105, 109, 101]), (12, [97, 116, 111, 109, 105, 99, 95, 117, 110, 105, 116, 95, 111, 102, 95, 118, 101, 108, 111, 99, 105, 116, 121]), (12, [72, 97, 114, 116, 114, 101, 101, 95, 101, 110, 101, 114, 103, 121]), (12, [117, 110, 105, 102, 105, 101, 100, 95, 97, 116, 111, 109, 105, 99, 95, 109, 97, 115, 115, 95, 117, 110, 105, 116]), (12, [109, 111, 108, 97, 114, 95, 109, 97, 115, 115, 95, 111, 102, 95, 99, 97, 114, 98, 111, 110, 95, 49, 50]), (12, [97, 116, 111, 109, 105, 99, 95, 109, 97, 115, 115, 95, 99, 111, 110, 115, 116, 97, 110, 116, 95, 101, 110, 101, 114, 103, 121, 95, 101, 113, 117, 105, 118, 97, 108, 101, 110, 116]), (12, [97, 116, 111, 109, 105, 99, 95, 109, 97, 115, 115, 95, 99, 111, 110, 115, 116, 97, 110, 116, 95, 101, 110, 101, 114, 103, 121, 95, 101, 113, 117, 105, 118, 97, 108, 101, 110, 116, 95, 105, 110, 95, 77, 101, 86]), (12, [72, 97, 114, 116, 114, 101, 101, 95, 101, 110, 101, 114, 103, 121, 95, 105, 110, 95, 101, 86]), (12, [97, 116, 111, 109, 105, 99, 95, 109, 97, 115, 115, 95, 117, 110, 105, 116, 95, 101, 108, 101, 99, 116, 114, 111, 110, 95, 118, 111, 108, 116, 95, 114, 101, 108, 97, 116, 105, 111, 110, 115, 104, 105, 112]), (12, [97, 116, 111, 109, 105, 99, 95, 109, 97, 115, 115, 95, 117, 110, 105, 116, 95, 104, 97, 114, 116, 114, 101, 101, 95, 114, 101, 108, 97, 116, 105, 111, 110, 115, 104, 105, 112]), (12, [97, 116, 111, 109, 105, 99, 95, 109, 97, 115, 115, 95, 117, 110, 105, 116, 95, 104, 101, 114, 116, 122, 95, 114, 101, 108, 97, 116, 105, 111, 110, 115, 104, 105, 112]), (12, [97, 116, 111, 109, 105, 99, 95, 109, 97, 115, 115, 95, 117, 110, 105, 116, 95, 105, 110, 118, 101, 114, 115, 101, 95, 109, 101, 116, 101, 114, 95, 114, 101, 108, 97, 116, 105, 111, 110, 115, 104, 105, 112]), (12, [97, 116, 111, 109, 105, 99, 95, 109, 97, 115, 115, 95, 117, 110, 105, 116, 95, 106, 111, 117, 108, 101, 95, 114, 101, 108, 97, 116, 105, 111, 110, 115, 104, 105, 112]), (12, [97, 116, 111, 109, 105, 99, 95, 109, 97, 115, 115, 95, 117, 110, 105, 116, 95, 107, 101, 108, 118, 105, 110, 95, 114, 101, 108, 97, 116, 105, 111, 110, 115, 104, 105, 112]), (12, [97, 116, 111, 109, 105, 99, 95, 109, 97, 115, 115, 95, 117, 110, 105, 116, 95, 107, 105, 108, 111, 103, 114, 97, 109, 95, 114, 101, 108, 97, 116, 105, 111, 110, 115, 104, 105, 112]), (12, [104, 97, 114, 116, 114, 101, 101, 95, 97, 116, 111, 109, 105, 99, 95, 109, 97, 115, 115, 95, 117, 110, 105, 116, 95, 114, 101, 108, 97, 116, 105, 111, 110, 115, 104, 105, 112]), (12, [104, 97, 114, 116, 114, 101, 101, 95, 101, 108, 101, 99, 116, 114, 111, 110, 95, 118, 111, 108, 116, 95, 114, 101, 108, 97, 116, 105, 111, 110, 115, 104, 105, 112]), (12, [104, 97, 114, 116, 114, 101, 101, 95, 104, 101, 114, 116, 122, 95, 114, 101, 108, 97, 116, 105, 111, 110, 115, 104, 105, 112]), (12, [104, 97, 114, 116, 114, 101, 101, 95, 105, 110, 118, 101, 114, 115, 101, 95, 109, 101, 116, 101, 114, 95, 114, 101, 108, 97, 116, 105, 111, 110, 115, 104, 105, 112]), (12, [104, 97, 114, 116, 114, 101, 101, 95, 106, 111, 117, 108, 101, 95, 114, 101, 108, 97, 116, 105, 111, 110, 115, 104, 105, 112]), (12, [104, 97, 114, 116, 114, 101, 101, 95, 107, 101, 108, 118, 105, 110, 95, 114, 101, 108, 97, 116, 105, 111, 110, 115, 104, 105, 112]), (12, [104, 97, 114, 116, 114, 101, 101, 95, 107, 105, 108, 111, 103, 114, 97, 109, 95, 114, 101, 108, 97, 116, 105, 111, 110, 115, 104, 105, 112]), (12, [104, 101, 114, 116, 122, 95, 97, 116, 111, 109, 105, 99, 95, 109, 97, 115, 115, 95, 117, 110, 105, 116, 95, 114, 101, 108, 97, 116, 105, 111, 110, 115, 104, 105, 112]), (12, [104, 101, 114, 116, 122, 95, 104, 97, 114, 116, 114, 101, 101, 95, 114, 101, 108, 97, 116, 105, 111, 110, 115, 104, 105, 112]), (12, [105, 110, 118, 101, 114, 115, 101, 95, 109, 101, 116, 101, 114, 95, 97, 116, 111, 109, 105, 99, 95, 109, 97, 115, 115, 95, 117, 110, 105, 116, 95, 114, 101, 108, 97, 116, 105, 111, 110, 115, 104, 105, 112]), (12, [105, 110, 118, 101, 114, 115, 101, 95, 109, 101, 116, 101, 114, 95, 104, 97, 114, 116, 114, 101, 101, 95, 114, 101, 108, 97, 116, 105, 111, 110, 115, 104, 105, 112]), (12, [106, 111, 117, 108, 101, 95, 97, 116, 111, 109, 105, 99, 95, 109, 97, 115, 115, 95, 117, 110, 105, 116, 95, 114, 101, 108, 97, 116, 105, 111, 110, 115, 104, 105, 112]), (12, [106, 111, 117, 108, 101, 95, 104, 97, 114, 116, 114, 101, 101, 95, 114, 101, 108, 97, 116, 105, 111, 110, 115, 104, 105, 112]), (12, [107, 101, 108, 118, 105, 110, 95, 97, 116, 111, 109, 105, 99, 95, 109, 97, 115, 115, 95, 117, 110, 105, 116, 95, 114, 101, 108, 97, 116, 105, 111, 110, 115, 104, 105, 112]), (12, [107, 101, 108, 118, 105, 110, 95, 104, 97, 114, 116, 114, 101, 101, 95, 114, 101, 108, 97, 116, 105, 111, 110, 115, 104, 105, 112]), (12, [107, 105, 108, 111, 103, 114, 97, 109, 95, 97, 116, 111, 109, 105, 99, 95, 109, 97, 115, 115, 95, 117, 110, 105, 116, 95, 114, 101, 108, 97, 116, 105, 111, 110, 115, 104, 105, 112]), (12, [107, 105, 108, 111, 103, 114, 97, 109, 95, 104, 97, 114, 116, 114, 101, 101, 95, 114, 101, 108, 97, 116, 105, 111, 110, 115, 104, 105, 112])]
/-- twice the exponents in the base units -/
def d_c_atomicunits : List (List Int) := [
  [0, 0, 0, 2, 0, 0, 0, 0],
  [14, -2, 0, -4, 6, 0, 0, 0],
  [20, -4, 0, -6, 8, 0, 0, 0],
  [-2, 4, 0, 2, 0, 0, 0, 0],
  [2, 0, 0, 0, 2, 0, 0, 0],
  [2, -6, 0, 0, 2, 0, 0, 0],
  [0, 0, 0, 0, 2, 0, 0, 0],
  [2, 2, 0, 0, 2, 0, 0, 0],
  [-6, 2, 0, 2, -2, 0, 0, 0],
  [-6, 0, 0, 2, -2, 0, 0, 0],
  [8, 0, 0, -2, 4, 0, 0, 0],
  [-6, 4, 0, 2, -2, 0, 0, 0],
  [2, 4, 0, 0, 2, 0, 0, 0],
  [-4, 4, 0, 2, 0, 0, 0, 0],
  [-4, 2, 0, 2, 0, 0, 0, 0],
  [0, 2, 0, 0, 0, 0, 0, 0],
  [0, 2, 0, 0, 0, 0, 0, 0],
  [0, 4, 0, 0, 2, 0, 0, 0],
  [-4, 0, 0, 2, -2, 0, 0, 0],
  [4, 4, 0, -2, 4, 0, 0, 0],
  [0, 0, 0, 2, 0, 0, 0, 0],
  [-2, 2, 0, 2, 0, 0, 0, 0],
  [8, -6, 0, -2, 4, 0, 0, 0],
  [2, 0, 0, 0, 0, 0, 0, 0],
  [-2, 2, 0, 0, 0, 0, 0, 0],
  [-4, 4, 0, 2, 0, 0, 0, 0],
  [0, 0, 0, 2, 0, 0, 0, 0],
  [0, 0, -2, 2, 0, 0, 0, 0],
  [-4, 4, 0, 2, 0, 0, 0, 0],
  [-4, 4, 0, 2, 0, 0, 0, 0],
  [-4, 4, 0, 2, 0, 0, 0, 0],
  [-4, 4, 0, 2, 0, 0, 0, 0],
  [-4, 4, 0, 2, 0, 0, 0, 0],
  [-2, 0, 0, 0, 0, 0, 0, 0],
  [0, -2, 0, 0, 0, 0, 0, 0],
  [-4, 4, 0, 2, 0, 0, 0, 0],
  [0, 0, 0, 0, 0, 0, 2, 0],
  [0, 0, 0, 2, 0, 0, 0, 0],
  [0, 0, 0, 2, 0, 0, 0, 0],
  [-4, 4, 0, 2, 0, 0, 0, 0],
  [-2, 0, 0, 0, 0, 0, 0, 0],
  [0, -2, 0, 0, 0, 0, 0, 0],
  [-4, 4, 0, 2, 0, 0, 0, 0],
  [0, 0, 0, 0, 0, 0, 2, 0],
  [0, 0, 0, 2, 0, 0, 0, 0],
  [0, 0, 0, 2, 0, 0, 0, 0],
  [-4, 4, 0, 2, 0, 0, 0, 0],
  [0, 0, 0, 2, 0, 0, 0, 0],
  [-4, 4, 0, 2, 0, 0, 0, 0],
  [0, 0, 0, 2, 0, 0, 0, 0],
  [-4, 4, 0, 2, 0, 0, 0, 0],
  [0, 0, 0, 2, 0, 0, 0, 0],
  [-4, 4, 0, 2, 0, 0, 0, 0],
  [0, 0, 0, 2, 0, 0, 0, 0],
  [-4, 4, 0, 2, 0, 0, 0, 0]]

/-- code points of the labels -/
def l_c_deuteron : List (List Nat) := []
/-- class number and code points of the name -/
def k_c_deuteron : List (Nat × List Nat) := [(12, [100, 101, 117, 116, 101, 114, 111, 110, 95, 114, 109, 115, 95, 99, 104, 97, 114, 103, 101, 95, 114, 97, 100, 105, 117, 115]), (12, [100, 101, 117, 116, 101, 114, 111, 110, 95, 109, 97, 115, 115]), (12, [100, 101, 117, 116, 101, 114, 111, 110, 95, 103, 95, 102, 97, 99, 116, 111, 114]), (12, [100, 101, 117, 116, 101, 114, 111, 110, 95, 109, 97, 103, 110, 101, 116, 105, 99, 95, 109, 111, 109, 101, 110, 116]), (12, [100, 101, 117, 116, 101, 114, 111, 110, 95, 109, 97, 115, 115, 95, 101, 110, 101, 114, 103, 121, 95, 101, 113, 117, 105, 118, 97, 108, 101, 110, 116]), (12, [100, 101, 117, 116, 101, 114, 111, 110, 95, 109, 97, 115, 115, 95, 101, 110, 101, 114, 103, 121, 95, 101, 113, 117, 105, 118, 97, 108, 101, 110, 116, 95, 105, 110, 95, 77, 101, 86]), (12, [100, 101, 117, 116, 101, 114, 111, 110, 95, 109, 97, 115, 115, 95, 105, 110, 95, 117]), (12, [100, 101, 117, 116, 101, 114, 111, 110, 95, 109, 111, 108, 97, 114, 95, 109, 97, 115, 115]), (12, [100, 101, 117, 116, 101, 114, 111, 110, 95, 101, 108, 101, 99, 116, 114, 111, 110, 95, 109, 97, 115, 115, 95, 114, 97, 116, 105, 111]), (12, [100, 101, 117, 116, 101, 114, 111, 110, 95, 112, 114, 111, 116, 111, 110, 95, 109, 97, 115, 115, 95, 114, 97, 116, 105, 111]), (12, [100, 101, 117, 116, 101, 114, 111, 110, 95, 101, 108, 101, 99, 116, 114, 111, 110, 95, 109, 97, 103, 110, 101, 116, 105, 99, 95, 109, 111, 109, 101, 110, 116, 95, 114, 97, 116, 105, 111]), (12, [100, 101, 117, 116, 101, 114, 111, 110, 95, 109, 97, 103, 110, 101, 116, 105, 99, 95, 109, 111, 109, 101, 110, 116, 95, 116, 111, 95, 66, 111, 104, 114, 95, 109, 97, 103, 110, 101, 116, 111, 110, 95, 114, 97, 116, 105, 111]), (12, [100, 101, 117, 116, 101, 114, 111, 110, 95, 109, 97, 103, 110, 101, 116, 105, 99, 95, 109, 111, 109, 101, 110, 116, 95, 116, 111, 95, 110, 117, 99, 108, 101, 97, 114, 95, 109, 97, 103, 110, 101, 116, 111, 110, 95, 114, 97, 116, 105, 111]), (12, [100, 101, 117, 116, 101, 114, 111, 110, 95, 110, 101, 117, 116, 114, 111, 110, 95, 109, 97, 103, 110, 101, 116, 105, 99, 95, 109, 111, 109, 101, 110, 116, 95, 114, 97, 116, 105, 111]), (12, [100, 101, 117, 116, 101, 114, 111, 110, 95, 112, 114, 111, 116, 111, 110, 95, 109, 97, 103, 110, 101, 116, 105, 99, 95, 109, 111, 109, 101, 110, 116, 95, 114, 97, 116, 105, 111])]
/-- twice the exponents in the base units -/
def d_c_deuteron : List (List Int) := [
  [0, 2, 0, 0, 0, 0, 0, 0],
  [0, 0, 0, 2, 0, 0, 0, 0],
  [0, 0, 0, 0, 0, 0, 0, 0],
  [0, 4, 0, 0, 2, 0, 0, 0],
  [-4, 4, 0, 2, 0, 0, 0, 0],
  [-4, 4, 0, 2, 0, 0, 0, 0],
  [0, 0, 0, 2, 0, 0, 0, 0],
  [0, 0, -2, 2, 0, 0, 0, 0],
  [0, 0, 0, 0, 0, 0, 0, 0],
  [0, 0, 0, 0, 0, 0, 0, 0],
  [0, 0, 0, 0, 0, 0, 0, 0],
  [0, 0, 0, 0, 0, 0, 0, 0],
  [0, 0, 0, 0, 0, 0, 0, 0],
  [0, 0, 0, 0, 0, 0, 0, 0],
  [0, 0, 0, 0, 0, 0, 0, 0]]

/-- code points of the labels -/
def l_c_electromagnetism : List (List Nat) := []
/-- class number and code points of the name -/
def k_c_electromagnetism : List (Nat × List Nat) := [(12, [99, 104, 97, 114, 97, 99, 116, 101, 114, 105, 115, 116, 105, 99, 95, 105, 109, 112, 101, 100, 97, 110, 99, 101, 95, 111, 102, 95, 118, 97, 99, 117, 117, 109]), (12, [101, 108, 101, 99, 116, 114, 105, 99, 95, 99, 111, 110, 115, 116, 97, 110, 116]), (12, [109, 97, 103, 110, 101, 116, 105, 99, 95, 99, 111, 110, 115, 116, 97, 110, 116])]
/-- twice the exponents in the base units -/
def d_c_electromagnetism : List (List Int) := [
  [-6, 4, 0, 2, -4, 0, 0, 0],
  [8, -6, 0, -2, 4, 0, 0, 0],
  [-4, 2, 0, 2, -4, 0, 0, 0]]

/-- code points of the labels -/
def l_c_electron : List (List Nat) := []
/-- class number and code points of the name -/
def k_c_electron : List (Nat × List Nat) := [(12, [101, 108, 101, 109, 101, 110, 116, 97, 114, 121, 95, 99, 104, 97, 114, 103, 101]), (12, [101, 108, 101, 109, 101, 110, 116, 97, 114, 121, 95, 99, 104, 97, 114, 103, 101, 95, 111, 118, 101, 114, 95, 104]), (12, [70, 97, 114, 97, 100, 97, 121, 95, 99, 111, 110, 115, 116, 97, 110, 116]), (12, [99, 108, 97, 115, 115, 105, 99, 97, 108, 95, 101, 108, 101, 99, 116, 114, 111, 110, 95, 114, 97, 100, 105, 117, 115]), (12, [101, 108, 101, 99, 116, 114, 111, 110, 95, 109, 97, 115, 115]), (12, [67, 111, 109, 112, 116, 111, 110, 95, 119, 97, 118, 101, 108, 101, 110, 103, 116, 104]), (12, [67, 111, 109, 112, 116, 111, 110, 95, 119, 97, 118, 101, 108, 101, 110, 103, 116, 104, 95, 111, 118, 101, 114, 95, 50, 95, 112, 105]), (12, [101, 108, 101, 99, 116, 114, 111, 110, 95, 99, 104, 97, 114, 103, 101, 95, 116, 111, 95, 109, 97, 115, 115, 95, 113, 117, 111, 116, 105, 101, 110, 116]), (12, [101, 108, 101, 99, 116, 114, 111, 110, 95, 103, 95, 102, 97, 99, 116, 111, 114]), (12, [101, 108, 101, 99, 116, 114, 111, 110, 95, 103, 121, 114, 111, 109, 97, 103, 110, 101, 116, 105, 99, 95, 114, 97, 116, 105, 111]), (12, [101, 108, 101, 99, 116, 114, 111, 110, 95, 103, 121, 114, 111, 109, 97, 103, 110, 101, 116, 105, 99, 95, 114, 97, 116, 105, 111, 95, 111, 118, 101, 114, 95, 50, 95, 112, 105]), (12, [101, 108, 101, 99, 116, 114, 111, 110, 95, 109, 97, 103, 110, 101, 116, 105, 99, 95, 109, 111, 109, 101, 110, 116]), (12, [101, 108, 101, 99, 116, 114, 111, 110, 95, 109, 97, 103, 110, 101, 116, 105, 99, 95, 109, 111, 109, 101, 110, 116, 95, 97, 110, 111, 109, 97, 108, 121]), (12, [101, 108, 101, 99, 116, 114, 111, 110, 95, 118, 111, 108, 116]), (12, [84, 104, 111, 109, 115, 111, 110, 95, 99, 114, 111, 115, 115, 95, 115, 101, 99, 116, 105, 111, 110]), (12, [66, 111, 104, 114, 95, 109, 97, 103, 110, 101, 116, 111, 110]), (12, [66, 111, 104, 114, 95, 109, 97, 103, 110, 101, 116, 111, 110, 95, 105, 110, 95, 72, 122, 95, 112, 101, 114, 95, 84]), (12, [66, 111, 104, 114, 95, 109, 97, 103, 110, 101, 116, 111, 110, 95, 105, 110, 95, 105, 110, 118, 101, 114, 115, 101, 95, 109, 101, 116, 101, 114, 115, 95, 112, 101, 114, 95, 116, 101, 115, 108, 97]), (12, [66, 111, 104, 114, 95, 109, 97, 103, 110, 101, 116, 111, 110, 95, 105, 110, 95, 75, 95, 112, 101, 114, 95, 84]), (12, [101, 108, 101, 99, 116, 114, 111, 110, 95, 109, 97, 115, 115, 95, 101, 110, 101, 114, 103, 121, 95, 101, 113, 117, 105, 118, 97, 108, 101, 110, 116]), (12, [101, 108, 101, 99, 116, 114, 111, 110, 95, 109, 97, 115, 115, 95, 101, 110, 101, 114, 103, 121, 95, 101, 113, 117, 105, 118, 97, 108, 101, 110, 116, 95, 105, 110, 95, 77, 101, 86]), (12, [101, 108, 101, 99, 116, 114, 111, 110, 95, 109, 97, 115, 115, 95, 105, 110, 95, 117]), (12, [101, 108, 101, 99, 116, 114, 111, 110, 95, 109, 111, 108, 97, 114, 95, 109, 97, 115, 115]), (12, [101, 108, 101, 99, 116, 114, 111, 110, 95, 100, 101, 117, 116, 101, 114, 111, 110, 95, 109, 97, 115, 115, 95, 114, 97, 116, 105, 111]), (12, [101, 108, 101, 99, 116, 114, 111, 110, 95, 109, 117, 111, 110, 95, 109, 97, 115, 115, 95, 114, 97, 116, 105, 111]), (12, [101, 108, 101, 99, 116, 114, 111, 110, 95, 110, 101, 117, 116, 114, 111, 110, 95, 109, 97, 115, 115, 95, 114, 97, 116, 105, 111]), (12, [101, 108, 101, 99, 116, 114, 111, 110, 95, 112, 114, 111, 116, 111, 110, 95, 109, 97, 115, 115, 95, 114, 97, 116, 105, 111]), (12, [101, 108, 101, 99, 116, 114, 111, 110, 95, 116, 97, 117, 95, 109, 97, 115, 115, 95, 114, 97, 116, 105, 111]), (12, [101, 108, 101, 99, 116, 114, 111, 110, 95, 116, 111, 95, 97, 108, 112, 104, 97, 95, 112, 97, 114, 116, 105, 99, 108, 101, 95, 109, 97, 115, 115, 95, 114, 97, 116, 105, 111]), (12, [101, 108, 101, 99, 116, 114, 111, 110, 95, 100, 101, 117, 116, 101, 114, 111, 110, 95, 109, 97, 103, 110, 101, 116, 105, 99, 95, 109, 111, 109, 101, 110, 116, 95, 114, 97, 116, 105, 111]), (12, [101, 108, 101, 99, 116, 114, 111, 110, 95, 109, 97, 103, 110, 101, 116, 105, 99, 95, 109, 111, 109, 101, 110, 116, 95, 116, 111, 95, 66, 111, 104, 114, 95, 109, 97, 103, 110, 101, 116, 111, 110, 95, 114, 97, 116, 105, 111]), (12, [101, 108, 101, 99, 116, 114, 111, 110, 95, 109, 97, 103, 110, 101, 116, 105, 99, 95, 109, 111, 109, 101, 110, 116, 95, 116, 111, 95, 110, 117, 99, 108, 101, 97, 114, 95, 109, 97, 103, 110, 101, 116, 111, 110, 95, 114, 97, 116, 105, 111]), (12, [101, 108, 101, 99, 116, 114, 111, 110, 95, 109, 117, 111, 110, 95, 109, 97, 103, 110, 101, 116, 105, 99, 95, 109, 111, 109, 101, 110, 116, 95, 114, 97, 116, 105, 111]), (12, [101, 108, 101, 99, 116, 114, 111, 110, 95, 110, 101, 117, 116, 114, 111, 110, 95, 109, 97, 103, 110, 101, 116, 105, 99, 95, 109, 111, 109, 101, 110, 116, 95, 114, 97, 116, 105, 111]), (12, [101, 108, 101, 99, 116, 114, 111, 110, 95, 112, 114, 111, 116, 111, 110, 95, 109, 97, 103, 110, 101, 116, 105, 99, 95, 109, 111, 109, 101, 110, 116, 95, 114, 97, 116, 105, 111]), (12, [101, 108, 101, 99, 116, 114, 111, 110, 95, 116, 111, 95, 115, 104, 105, 101, 108, 100, 101, 100, 95, 104, 101, 108, 105, 111, 110, 95, 109, 97, 103, 110, 101, 116, 105, 99, 95, 109, 111, 109, 101, 110, 116, 95, 114, 97, 116, 105, 111]), (12, [101, 108, 101, 99, 116, 114, 111, 110, 95, 116, 111, 95, 115, 104, 105, 101, 108, 100, 101, 100, 95, 112, 114, 111, 116, 111, 110, 95, 109, 97, 103, 110, 101, 116, 105, 99, 95, 109, 111, 109, 101, 110, 116, 95, 114, 97, 116, 105, 111]), (12, [101, 108, 101, 99, 116, 114, 111, 110, 95, 118, 111, 108, 116, 95, 97, 116, 111, 109, 105, 99, 95, 109, 97, 115, 115, 95, 117, 110, 105, 116, 95, 114, 101, 108, 97, 116, 105, 111, 110, 115, 104, 105, 112]), (12, [101, 108, 101, 99, 116, 114, 111, 110, 95, 118, 111, 108, 116, 95, 104, 97, 114, 116, 114, 101, 101, 95, 114, 101, 108, 97, 116, 105, 111, 110, 115, 104, 105, 112]), (12, [101, 108, 101, 99, 116, 114, 111, 110, 95, 118, 111, 108, 116, 95, 104, 101, 114, 116, 122, 95, 114, 101, 108, 97, 116, 105, 111, 110, 115, 104, 105, 112]), (12, [101, 108, 101, 99, 116, 114, 111, 110, 95, 118, 111, 108, 116, 95, 105, 110, 118, 101, 114, 115, 101, 95, 109, 101, 116, 101, 114, 95, 114, 101, 108, 97, 116, 105, 111, 110, 115, 104, 105, 112]), (12, [101, 108, 101, 99, 116, 114, 111, 110, 95, 118, 111, 108, 116, 95, 106, 111, 117, 108, 101, 95, 114, 101, 108, 97, 116, 105, 111, 110, 115, 104, 105, 112]), (12, [101, 108, 101, 99, 116, 114, 111, 110, 95, 118, 111, 108, 116, 95, 107, 101, 108, 118, 105, 110, 95, 114, 101, 108, 97, 116, 105, 111, 110, 115, 104, 105, 112]), (12, [101, 108, 101, 99, 116, 114, 111, 110, 95, 118, 111, 108, 116, 95, 107, 105, 108, 111, 103, 114, 97, 109, 95, 114, 101, 108, 97, 116, 105, 111, 110, 115, 104, 105, 112]), (12, [104, 101, 114, 116, 122, 95, 101, 108, 101, 99, 116, 114, 111, 110, 95, 118, 111, 108, 116, 95, 114, 101, 108, 97, 116, 105, 111, 110, 115, 104, 105, 112]), (12, [105, 110, 118, 101, 114, 115, 101, 95, 109, 101, 116, 101, 114, 95, 101, 108, 101, 99, 116, 114, 111, 110, 95, 118, 111, 108, 116, 95, 114, 101, 108, 97, 116, 105, 111, 110, 115, 104, 105, 112]), (12, [106, 111, 117, 108, 101, 95, 101, 108, 101, 99, 116, 114, 111, 110, 95, 118, 111, 108, 116, 95, 114, 101, 108, 97, 116, 105, 111, 110, 115, 104, 105, 112]), (12, [107, 101, 108, 118, 105, 110, 95, 101, 108, 101, 99, 116, 114, 111, 110, 95, 118, 111, 108, 116, 95, 114, 101, 108, 97, 116, 105, 111, 110, 115, 104, 105, 112]), (12, [107, 105, 108, 111, 103, 114, 97, 109, 95, 101, 108, 101, 99, 116, 114, 111, 110, 95, 118, 111, 108, 116, 95, 114, 101, 108, 97, 116, 105, 111, 110, 115, 104, 105, 112])]
/-- twice the exponents in the base units -/
def d_c_electron : List (List Int) := [
  [2, 0, 0, 0, 2, 0, 0, 0],
  [4, -4, 0, -2, 2, 0, 0, 0],
  [2, 0, -2, 0, 2, 0, 0, 0],
  [0, 2, 0, 0, 0, 0, 0, 0],
  [0, 0, 0, 2, 0, 0, 0, 0],
  [0, 2, 0, 0, 0, 0, 0, 0],
  [0, 2, 0, 0, 0, 0, 0, 0],
  [2, 0, 0, -2, 2, 0, 0, 0],
  [0, 0, 0, 0, 0, 0, 0, 0],
  [2, 0, 0, -2, 2, 0, 0, 0],
  [2, 0, 0, -2, 2, 0, 0, 0],
  [0, 4, 0, 0, 2, 0, 0, 0],
  [0, 0, 0, 0, 0, 0, 0, 0],
  [-4, 4, 0, 2, 0, 0, 0, 0],
  [0, 4, 0, 0, 0, 0, 0, 0],
  [0, 4, 0, 0, 2, 0, 0, 0],
  [2, 0, 0, -2, 2, 0, 0, 0],
  [4, -2, 0, -2, 2, 0, 0, 0],
  [4, 0, 0, -2, 2, 0, 2, 0],
  [-4, 4, 0, 2, 0, 0, 0, 0],
  [-4, 4, 0, 2, 0, 0, 0, 0],
  [0, 0, 0, 2, 0, 0, 0, 0],
  [0, 0, -2, 2, 0, 0, 0, 0],
  [0, 0, 0, 0, 0, 0, 0, 0],
  [0, 0, 0, 0, 0, 0, 0, 0],
  [0, 0, 0, 0, 0, 0, 0, 0],
  [0, 0, 0, 0, 0, 0, 0, 0],
  [0, 0, 0, 0, 0, 0, 0, 0],
  [0, 0, 0, 0, 0, 0, 0, 0],
  [0, 0, 0, 0, 0, 0, 0, 0],
  [0, 0, 0, 0, 0, 0, 0, 0],
  [0, 0, 0, 0, 0, 0, 0, 0],
  [0, 0, 0, 0, 0, 0, 0, 0],
  [0, 0, 0, 0, 0, 0, 0, 0],
  [0, 0, 0, 0, 0, 0, 0, 0],
  [0, 0, 0, 0, 0, 0, 0, 0],
  [0, 0, 0, 0, 0, 0, 0, 0],
  [0, 0, 0, 2, 0, 0, 0, 0],
  [-4, 4, 0, 2, 0, 0, 0, 0],
  [-2, 0, 0, 0, 0, 0, 0, 0],
  [0, -2, 0, 0, 0, 0, 0, 0],
  [-4, 4, 0, 2, 0, 0, 0, 0],
  [0, 0, 0, 0, 0, 0, 2, 0],
  [0, 0, 0, 2, 0, 0, 0, 0],
  [-4, 4, 0, 2, 0, 0, 0, 0],
  [-4, 4, 0, 2, 0, 0, 0, 0],
  [-4, 4, 0, 2, 0, 0, 0, 0],
  [-4, 4, 0, 2, 0, 0, 0, 0],
  [-4, 4, 0, 2, 0, 0, 0, 0]]

/-- code points of the labels -/
def l_c_helion : List (List Nat) := []
/-- class number and code points of the name -/
def k_c_helion : List (Nat × List Nat) := [(12, [104, 101, 108, 105, 111, 110, 95, 109, 97, 115, 115]), (12, [115, 104, 105, 101, 108, 100, 101, 100, 95, 104, 101, 108, 105, 111, 110, 95, 103, 121, 114, 111, 109, 97, 103, 110, 101, 116, 105, 99, 95, 114, 97, 116, 105, 111]), (12, [115, 104, 105, 101, 108, 100, 101, 100, 95, 104, 101, 108, 105, 111, 110, 95, 103, 121, 114, 111, 109, 97, 103, 110, 101, 116, 105, 99, 95, 114, 97, 116, 105, 111, 95, 111, 118, 101, 114, 95, 50, 95, 112, 105]), (12, [115, 104, 105, 101, 108, 100, 101, 100, 95, 104, 101, 108, 105, 111, 110, 95, 109, 97, 103, 110, 101, 116, 105, 99, 95, 109, 111, 109, 101, 110, 116]), (12, [104, 101, 108, 105, 111, 110, 95, 109, 97, 115, 115, 95, 101, 110, 101, 114, 103, 121, 95, 101, 113, 117, 105, 118, 97, 108, 101, 110, 116]), (12, [104, 101, 108, 105, 111, 110, 95, 109, 97, 115, 115, 95, 101, 110, 101, 114, 103, 121, 95, 101, 113, 117, 105, 118, 97, 108, 101, 110, 116, 95, 105, 110, 95, 77, 101, 86]), (12, [104, 101, 108, 105, 111, 110, 95, 109, 97, 115, 115, 95, 105, 110, 95, 117]), (12, [104, 101, 108, 105, 111, 110, 95, 109, 111, 108, 97, 114, 95, 109, 97, 115, 115]), (12, [104, 101, 108, 105, 111, 110, 95, 101, 108, 101, 99, 116, 114, 111, 110, 95, 109, 97, 115, 115, 95, 114, 97, 116, 105, 111]), (12, [104, 101, 108, 105, 111, 110, 95, 112, 114, 111, 116, 111, 110, 95, 109, 97, 115, 115, 95, 114, 97, 116, 105, 111]), (12, [115, 104, 105, 101, 108, 100, 101, 100, 95, 104, 101, 108, 105, 111, 110, 95, 116, 111, 95, 112, 114, 111, 116, 111, 110, 95, 109, 97, 103, 110, 101, 116, 105, 99, 95, 109, 111, 109, 101, 110, 116, 95, 114, 97, 116, 105, 111]), (12, [115, 104, 105, 101, 108, 100, 101, 100, 95, 104, 101, 108, 105, 111, 110, 95, 109, 97, 103, 110, 101, 116, 105, 99, 95, 109, 111, 109, 101, 110, 116, 95, 116, 111, 95, 66, 111, 104, 114, 95, 109, 97, 103, 110, 101, 116, 111, 110, 95, 114, 97, 116, 105, 111]), (12, [115, 104, 105, 101, 108, 100, 101, 100, 95, 104, 101, 108, 105, 111, 110, 95, 109, 97, 103, 110, 101, 116, 105, 99, 95, 109, 111, 109, 101, 110, 116, 95, 116, 111, 95, 110, 117, 99, 108, 101, 97, 114, 95, 109, 97, 103, 110, 101, 116, 111, 110, 95, 114, 97, 116, 105, 111]), (12, [115, 104, 105, 101, 108, 100, 101, 100, 95, 104, 101, 108, 105, 111, 110, 95, 116, 111, 95, 115, 104, 105, 101, 108, 100, 101, 100, 95, 112, 114, 111, 116, 111, 110, 95, 109, 97, 103, 110, 101, 116, 105, 99, 95, 109, 111, 109, 101, 110, 116, 95, 114, 97, 116, 105, 111])]
/-- twice the exponents in the base units -/
def d_c_helion : List (List Int) := [
  [0, 0, 0, 2, 0, 0, 0, 0],
  [2, 0, 0, -2, 2, 0, 0, 0],
  [2, 0, 0, -2, 2, 0, 0, 0],
  [0, 4, 0, 0, 2, 0, 0, 0],
  [-4, 4, 0, 2, 0, 0, 0, 0],
  [-4, 4, 0, 2, 0, 0, 0, 0],
  [0, 0, 0, 2, 0, 0, 0, 0],
  [0, 0, -2, 2, 0, 0, 0, 0],
  [0, 0, 0, 0, 0, 0, 0, 0],
  [0, 0, 0, 0, 0, 0, 0, 0],
  [0, 0, 0, 0, 0, 0, 0, 0],
  [0, 0, 0, 0, 0, 0, 0, 0],
  [0, 0, 0, 0, 0, 0, 0, 0],
  [0, 0, 0, 0, 0, 0, 0, 0]]

/-- code points of the labels -/
def l_c_mathematical : List (List Nat) := []
/-- class number and code points of the name -/
def k_c_mathematical : List (Nat × List Nat) := [(12, [112, 105]), (12, [103, 111, 108, 100, 101, 110, 95, 114, 97, 116, 105, 111])]
/-- twice the exponents in the base units -/
def d_c_mathematical : List (List Int) := [
  [0, 0, 0, 0, 0, 0, 0, 0],
  [0, 0, 0, 0, 0, 0, 0, 0]]

/-- code points of the labels -/
def l_c_muon : List (List Nat) := []
/-- class number and code points of the name -/
def k_c_muon : List (Nat × List Nat) := [(12, [109, 117, 111, 110, 95, 109, 97, 115, 115]), (12, [109, 117, 111, 110, 95, 67, 111, 109, 112, 116, 111, 110, 95, 119, 97, 118, 101, 108, 101, 110, 103, 116, 104]), (12, [109, 117, 111, 110, 95, 67, 111, 109, 112, 116, 111, 110, 95, 119, 97, 118, 101, 108, 101, 110, 103, 116, 104, 95, 111, 118, 101, 114, 95, 50, 95, 112, 105]), (12, [109, 117, 111, 110, 95, 103, 95, 102, 97, 99, 116, 111, 114]), (12, [109, 117, 111, 110, 95, 109, 97, 103, 110, 101, 116, 105, 99, 95, 109, 111, 109, 101, 110, 116]), (12, [109, 117, 111, 110, 95, 109, 97, 103, 110, 101, 116, 105, 99, 95, 109, 111, 109, 101, 110, 116, 95, 97, 110, 111, 109, 97, 108, 121]), (12, [109, 117, 111, 110, 95, 109, 97, 115, 115, 95, 101, 110, 101, 114, 103, 121, 95, 101, 113, 117, 105, 118, 97, 108, 101, 110, 116]), (12, [109, 117, 111, 110, 95, 109, 97, 115, 115, 95, 101, 110, 101, 114, 103, 121, 95, 101, 113, 117, 105, 118, 97, 108, 101, 110, 116, 95, 105, 110, 95, 77, 101, 86]), (12, [109, 117, 111, 110, 95, 109, 97, 115, 115, 95, 105, 110, 95, 117]), (12, [109, 117, 111, 110, 95, 109, 111, 108, 97, 114, 95, 109, 97, 115, 115]), (12, [109, 117, 111, 110, 95, 101, 108, 101, 99, 116, 114, 111, 110, 95, 109, 97, 115, 115, 95, 114, 97, 116, 105, 111]), (12, [109, 117, 111, 110, 95, 110, 101, 117, 116, 114, 111, 110, 95, 109, 97, 115, 115, 95, 114, 97, 116, 105, 111]), (12, [109, 117, 111, 110, 95, 112, 114, 111, 116, 111, 110, 95, 109, 97, 115, 115, 95, 114, 97, 116, 105, 111]), (12, [109, 117, 111, 110, 95, 116, 97, 117, 95, 109, 97, 115, 115, 95, 114, 97, 116, 105, 111]), (12, [109, 117, 111, 110, 95, 109, 97, 103, 110, 101, 116, 105, 99, 95, 109, 111, 109, 101, 110, 116, 95, 116, 111, 95, 66, 111, 104, 114, 95, 109, 97, 103, 110, 101, 116, 111, 110, 95, 114, 97, 116, 105, 111]), (12, [109, 117, 111, 110, 95, 109, 97, 103, 110, 101, 116, 105, 99, 95, 109, 111, 109, 101, 110, 116, 95, 116, 111, 95, 110, 117, 99, 108, 101, 97, 114, 95, 109, 97, 103, 110, 101, 116, 111, 110, 95, 114, 97, 116, 105, 111]), (12, [109, 117, 111, 110, 95, 112, 114, 111, 116, 111, 110, 95, 109, 97, 103, 110, 101, 116, 105, 99, 95, 109, 111, 109, 101, 110, 116, 95, 114, 97, 116, 105, 111])]
/-- twice the exponents in the base units -/
def d_c_muon : List (List Int) := [
  [0, 0, 0, 2, 0, 0, 0, 0],
  [0, 2, 0, 0, 0, 0, 0, 0],
  [0, 2, 0, 0, 0, 0, 0, 0],
  [0, 0, 0, 0, 0, 0, 0, 0],
  [0, 4, 0, 0, 2, 0, 0, 0],
  [0, 0, 0, 0, 0, 0, 0, 0],
  [-4, 4, 0, 2, 0, 0, 0, 0],
  [-4, 4, 0, 2, 0, 0, 0, 0],
  [0, 0, 0, 2, 0, 0, 0, 0],
  [0, 0, -2, 2, 0, 0, 0, 0],
  [0, 0, 0, 0, 0, 0, 0, 0],
  [0, 0, 0, 0, 0, 0, 0, 0],
  [0, 0, 0, 0, 0, 0, 0, 0],
  [0, 0, 0, 0, 0, 0, 0, 0],
  [0, 0, 0, 0, 0, 0, 0, 0],
  [0, 0, 0, 0, 0, 0, 0, 0],
  [0, 0, 0, 0, 0, 0, 0, 0]]

/-- code points of the labels -/
def l_c_naturalunits : List (List Nat) := []
/-- class number and code points of the name -/
def k_c_naturalunits : List (Nat × List Nat) := [(12, [110, 97, 116, 117, 114, 97, 108, 95, 117, 110, 105, 116, 95, 111, 102, 95, 97, 99, 116, 105, 111, 110]), (12, [110, 97, 116, 117, 114, 97, 108, 95, 117, 110, 105, 116, 95, 111, 102, 95, 101, 110, 101, 114, 103, 121]), (12, [110, 97, 116, 117, 114, 97, 108, 95, 117, 110, 105, 116, 95, 111, 102, 95, 108, 101, 110, 103, 116, 104]), (12, [110, 97, 116, 117, 114, 97, 108, 95, 117, 110, 105, 116, 95, 111, 102, 95, 109, 97, 115, 115]), (12, [110, 97, 116, 117, 114, 97, 108, 95, 117, 110, 105, 116, 95, 111, 102, 95, 109, 111, 109, 101, 110, 116, 117, 109]), (12, [110, 97, 116, 117, 114, 97, 108, 95, 117, 110, 105, 116, 95, 111, 102, 95, 116, 105, 109, 101]), (12, [110, 97, 116, 117, 114, 97, 108, 95, 117, 110, 105, 116, 95, 111, 102, 95, 118, 101, 108, 111, 99, 105, 116, 121]), (12, [110, 97, 116, 117, 114, 97, 108, 95, 117, 110, 105, 116, 95, 111, 102, 95, 97, 99, 116, 105, 111, 110, 95, 105, 110, 95, 101, 86, 95, 115]), (12, [110, 97, 116, 117, 114, 97, 108, 95, 117, 110, 105, 116, 95, 111, 102, 95, 101, 110, 101, 114, 103, 121, 95, 105, 110, 95, 77, 101, 86]), (12, [110, 97, 116, 117, 114, 97, 108, 95, 117, 110, 105, 116, 95, 111, 102, 95, 109, 111, 109, 101, 110, 116, 117, 109, 95, 105, 110, 95, 77, 101, 86, 95, 112, 101, 114, 95, 99])]
/-- twice the exponents in the base units -/
def d_c_naturalunits : List (List Int) := [
  [-2, 4, 0, 2, 0, 0, 0, 0],
  [-4, 4, 0, 2, 0, 0, 0, 0],
  [0, 2, 0, 0, 0, 0, 0, 0],
  [0, 0, 0, 2, 0, 0, 0, 0],
  [-2, 2, 0, 2, 0, 0, 0, 0],
  [2, 0, 0, 0, 0, 0, 0, 0],
  [-2, 2, 0, 0, 0, 0, 0, 0],
  [-2, 4, 0, 2, 0, 0, 0, 0],
  [-4, 4, 0, 2, 0, 0, 0, 0],
  [-2, 2, 0, 2, 0, 0, 0, 0]]

/-- code points of the labels -/
def l_c_neutron : List (List Nat) := []
/-- class number and code points of the name -/
def k_c_neutron : List (Nat × List Nat) := [(12, [110, 101, 117, 116, 114, 111, 110, 95, 109, 97, 115, 115]), (12, [110, 101, 117, 116, 114, 111, 110, 95, 67, 111, 109, 112, 116, 111, 110, 95, 119, 97, 118, 101, 108, 101, 110, 103, 116, 104]), (12, [110, 101, 117, 116, 114, 111, 110, 95, 67, 111, 109, 112, 116, 111, 110, 95, 119, 97, 118, 101, 108, 101, 110, 103, 116, 104, 95, 111, 118, 101, 114, 95, 50, 95, 112, 105]), (12, [110, 101, 117, 116, 114, 111, 110, 95, 103, 95, 102, 97, 99, 116, 111, 114]), (12, [110, 101, 117, 116, 114, 111, 110, 95, 103, 121, 114, 111, 109, 97, 103, 110, 101, 116, 105, 99, 95, 114, 97, 116, 105, 111]), (12, [110, 101, 117, 116, 114, 111, 110, 95, 103, 121, 114, 111, 109, 97, 103, 110, 101, 116, 105, 99, 95, 114, 97, 116, 105, 111, 95, 111, 118, 101, 114, 95, 50, 95, 112, 105]), (12, [110, 101, 117, 116, 114, 111, 110, 95, 109, 97, 103, 110, 101, 116, 105, 99, 95, 109, 111, 109, 101, 110, 116]), (12, [110, 101, 117, 116, 114, 111, 110, 95, 109, 97, 115, 115, 95, 101, 110, 101, 114, 103, 121, 95, 101, 113, 117, 105, 118, 97, 108, 101, 110, 116]), (12, [110, 101, 117, 116, 114, 111, 110, 95, 109, 97, 115, 115, 95, 101, 110, 101, 114, 103, 121, 95, 101, 113, 117, 105, 118, 97, 108, 101, 110, 116, 95, 105, 110, 95, 77, 101, 86]), (12, [110, 101, 117, 116, 114, 111, 110, 95, 109, 97, 115, 115, 95, 105, 110, 95, 117]), (12, [110, 101, 117, 116, 114, 111, 110, 95, 109, 111, 108, 97, 114, 95, 109, 97, 115, 115]), (12, [110, 101, 117, 116, 114, 111, 110, 95, 101, 108, 101, 99, 116, 114, 111, 110, 95, 109, 97, 115, 115, 95, 114, 97, 116, 105, 111]), (12, [110, 101, 117, 116, 114, 111, 110, 95, 109, 117, 111, 110, 95, 109, 97, 115, 115, 95, 114, 97, 116, 105, 111]), (12, [110, 101, 117, 116, 114, 111, 110, 95, 112, 114, 111, 116, 111, 110, 95, 109, 97, 115, 115, 95, 114, 97, 116, 105, 111]), (12, [110, 101, 117, 116, 114, 111, 110, 95, 116, 97, 117, 95, 109, 97, 115, 115, 95, 114, 97, 116, 105, 111]), (12, [110, 101, 117, 116, 114, 111, 110, 95, 101, 108, 101, 99, 116, 114, 111, 110, 95, 109, 97, 103, 110, 101, 116, 105, 99, 95, 109, 111, 109, 101, 110, 116, 95, 114, 97, 116, 105, 111]), (12, [110, 101, 117, 116, 114, 111, 110, 95, 109, 97, 103, 110, 101, 116, 105, 99, 95, 109, 111, 109, 101, 110, 116, 95, 116, 111, 95, 66, 111, 104, 114, 95, 109, 97, 103, 110, 101, 116, 111, 110, 95, 114, 97, 116, 105, 111]), (12, [110, 101, 117, 116, 114, 111, 110, 95, 109, 97, 103, 110, 101, 116, 105, 99, 95, 109, 111, 109, 101, 110, 116, 95, 116, 111, 95, 110, 117, 99, 108, 101, 97, 114, 95, 109, 97, 103, 110, 101, 116, 111, 110, 95, 114, 97, 116, 105, 111]), (12, [110, 101, 117, 116, 114, 111, 110, 95, 112, 114, 111, 116, 111, 110, 95, 109, 97, 103, 110, 101, 116, 105, 99, 95, 109, 111, 109, 101, 110, 116, 95, 114, 97, 116, 105, 111]), (12, [110, 101, 117, 116, 114, 111, 110, 95, 116, 111, 95, 115, 104, 105, 101, 108, 100, 101, 100, 95, 112, 114, 111, 116, 111, 110, 95, 109, 97, 103, 110, 101, 116, 105, 99, 95, 109, 111, 109, 101, 110, 116, 95, 114, 97, 116, 105, 111])]
/-- twice the exponents in the base units -/
def d_c_neutron : List (List Int) := [
  [0, 0, 0, 2, 0, 0, 0, 0],
  [0, 2, 0, 0, 0, 0, 0, 0],
  [0, 2, 0, 0, 0, 0, 0, 0],
  [0, 0, 0, 0, 0, 0, 0, 0],
  [2, 0, 0, -2, 2, 0, 0, 0],
  [2, 0, 0, -2, 2, 0, 0, 0],
  [0, 4, 0, 0, 2, 0, 0, 0],
  [-4, 4, 0, 2, 0, 0, 0, 0],
  [-4, 4, 0, 2, 0, 0, 0, 0],
  [0, 0, 0, 2, 0, 0, 0, 0],
  [0, 0, -2, 2, 0, 0, 0, 0],
  [0, 0, 0, 0, 0, 0, 0, 0],
  [0, 0, 0, 0, 0, 0, 0, 0],
  [0, 0, 0, 0, 0, 0, 0, 0],
  [0, 0, 0, 0, 0, 0, 0, 0],
  [0, 0, 0, 0, 0, 0, 0, 0],
  [0, 0, 0, 0, 0, 0, 0, 0],
  [0, 0, 0, 0, 0, 0, 0, 0],
  [0, 0, 0, 0, 0, 0, 0, 0],
  [0, 0, 0, 0, 0, 0, 0, 0]]

/-- code points of the labels -/
def l_c_proton : List (List Nat) := []
/-- class number and code points of the name -/
def k_c_proton : List (Nat × List Nat) := [(12, [112, 114, 111, 116, 111, 110, 95, 109, 97, 115, 115]), (12, [112, 114, 111, 116, 111, 110, 95, 67, 111, 109, 112, 116, 111, 110, 95, 119, 97, 118, 101, 108, 101, 110, 103, 116, 104]), (12, [112, 114, 111, 116, 111, 110, 95, 67, 111, 109, 112, 116, 111, 110, 95, 119, 97, 118, 101, 108, 101, 110, 103, 116, 104, 95, 111, 118, 101, 114, 95, 50, 95, 112, 105]), (12, [112, 114, 111, 116, 111, 110, 95, 114, 109, 115, 95, 99, 104, 97, 114, 103, 101, 95, 114, 97, 100, 105, 117, 115]), (12, [112, 114, 111, 116, 111, 110, 95, 99, 104, 97, 114, 103, 101, 95, 116, 111, 95, 109, 97, 115, 115, 95, 113, 117, 111, 116, 105, 101, 110, 116]), (12, [112, 114, 111, 116, 111, 110, 95, 103, 95, 102, 97, 99, 116, 111, 114]), (12, [112, 114, 111, 116, 111, 110, 95, 103, 121, 114, 111, 109, 97, 103, 110, 101, 116, 105, 99, 95, 114, 97, 116, 105, 111]), (12, [112, 114, 111, 116, 111, 110, 95, 103, 121, 114, 111, 109, 97, 103, 110, 101, 116, 105, 99, 95, 114, 97, 116, 105, 111, 95, 111, 118, 101, 114, 95, 50, 95, 112, 105]), (12, [112, 114, 111, 116, 111, 110, 95, 109, 97, 103, 110, 101, 116, 105, 99, 95, 109, 111, 109, 101, 110, 116]), (12, [112, 114, 111, 116, 111, 110, 95, 109, 97, 103, 110, 101, 116, 105, 99, 95, 115, 104, 105, 101, 108, 100, 105, 110, 103, 95, 99, 111, 114, 114, 101, 99, 116, 105, 111, 110]), (12, [115, 104, 105, 101, 108, 100, 101, 100, 95, 112, 114, 111, 116, 111, 110, 95, 103, 121, 114, 111, 109, 97, 103, 110, 101, 116, 105, 99, 95, 114, 97, 116, 105, 111]), (12, [115, 104, 105, 101, 108, 100, 101, 100, 95, 112, 114, 111, 116, 111, 110, 95, 103, 121, 114, 111, 109, 97, 103, 110, 101, 116, 105, 99, 95, 114, 97, 116, 105, 111, 95, 111, 118, 101, 114, 95, 50, 95, 112, 105]), (12, [115, 104, 105, 101, 108, 100, 101, 100, 95, 112, 114, 111, 116, 111, 110, 95, 109, 97, 103, 110, 101, 116, 105, 99, 95, 109, 111, 109, 101, 110, 116]), (12, [110, 117, 99, 108, 101, 97, 114, 95, 109, 97, 103, 110, 101, 116, 111, 110]), (12, [110, 117, 99, 108, 101, 97, 114, 95, 109, 97, 103, 110, 101, 116, 111, 110, 95, 105, 110, 95, 101, 86, 95, 112, 101, 114, 95, 84]), (12, [110, 117, 99, 108, 101, 97, 114, 95, 109, 97, 103, 110, 101, 116, 111, 110, 95, 105, 110, 95, 105, 110, 118, 101, 114, 115, 101, 95, 109, 101, 116, 101, 114, 115, 95, 112, 101, 114, 95, 116, 101, 115, 108, 97]), (12, [110, 117, 99, 108, 101, 97, 114, 95, 109, 97, 103, 110, 101, 116, 111, 110, 95, 105, 110, 95, 75, 95, 112, 101, 114, 95, 84]), (12, [110, 117, 99, 108, 101, 97, 114, 95, 109, 97, 103, 110, 101, 116, 111, 110, 95, 105, 110, 95, 77, 72, 122, 95, 112, 101, 114, 95, 84]), (12, [112, 114, 111, 116, 111, 110, 95, 109, 97, 115, 115, 95, 101, 110, 101, 114, 103, 121, 95, 101, 113, 117, 105, 118, 97, 108, 101, 110, 116]), (12, [112, 114, 111, 116, 111, 110, 95, 109, 97, 115, 115, 95, 101, 110, 101, 114, 103, 121, 95, 101, 113, 117, 105, 118, 97, 108, 101, 110, 116, 95, 105, 110, 95, 77, 101, 86]), (12, [112, 114, 111, 116, 111, 110, 95, 109, 97, 115, 115, 95, 105, 110, 95, 117]), (12, [112, 114, 111, 116, 111, 110, 95, 109, 111, 108, 97, 114, 95, 109, 97, 115, 115]), (12, [112, 114, 111, 116, 111, 110, 95, 101, 108, 101, 99, 116, 114, 111, 110, 95, 109, 97, 115, 115, 95, 114, 97, 116, 105, 111]), (12, [112, 114, 111, 116, 111, 110, 95, 109, 117, 111, 110, 95, 109, 97, 115, 115, 95, 114, 97, 116, 105, 111]), (12, [112, 114, 111, 116, 111, 110, 95, 110, 101, 117, 116, 114, 111, 110, 95, 109, 97, 115, 115, 95, 114, 97, 116, 105, 111]), (12, [112, 114, 111, 116, 111, 110, 95, 116, 97, 117, 95, 109, 97, 115, 115, 95, 114, 97, 116, 105, 111]), (12, [112, 114, 111, 116, 111, 110, 95, 109, 97, 103, 110, 101, 116, 105, 99, 95, 109, 111, 109, 101, 110, 116, 95, 116, 111, 95, 66, 111, 104, 114, 95, 109, 97, 103, 110, 101, 116, 111, 110, 95, 114, 97, 116, 105, 111]), (12, [112, 114, 111, 116, 111, 110, 95, 109, 97, 103, 110, 101, 116, 105, 99, 95, 109, 111, 109, 101, 110, 116, 95, 116, 111, 95, 110, 117, 99, 108, 101, 97, 114, 95, 109, 97, 103, 110, 101, 116, 111, 110, 95, 114, 97, 116, 105, 111]), (12, [112, 114, 111, 116, 111, 110, 95, 110, 101, 117, 116, 114, 111, 110, 95, 109, 97, 103, 110, 101, 116, 105, 99, 95, 109, 111, 109, 101, 110, 116, 95, 114, 97, 116, 105, 111]), (12, [115, 104, 105, 101, 108, 100, 101, 100, 95, 112, 114, 111, 116, 111, 110, 95, 109, 97, 103, 110, 101, 116, 105, 99, 95, 109, 111, 109, 101, 110, 116, 95, 116, 111, 95, 66, 111, 104, 114, 95, 109, 97, 103, 110, 101, 116, 111, 110, 95, 114, 97, 116, 105, 111]), (12, [115, 104, 105, 101, 108, 100, 101, 100, 95, 112, 114, 111, 116, 111, 110, 95, 109, 97, 103, 110, 101, 116, 105, 99, 95, 109, 111, 109, 101, 110, 116, 95, 116, 111, 95, 110, 117, 99, 108, 101, 97, 114, 95, 109, 97, 103, 110, 101, 116, 111, 110, 95, 114, 97, 116, 105, 111])]
/-- twice the exponents in the base units -/
def d_c_proton : List (List Int) := [
  [0, 0, 0, 2, 0, 0, 0, 0],
  [0, 2, 0, 0, 0, 0, 0, 0],
  [0, 2, 0, 0, 0, 0, 0, 0],
  [0, 2, 0, 0, 0, 0, 0, 0],
  [2, 0, 0, -2, 2, 0, 0, 0],
  [0, 0, 0, 0, 0, 0, 0, 0],
  [2, 0, 0, -2, 2, 0, 0, 0],
  [2, 0, 0, -2, 2, 0, 0, 0],
  [0, 4, 0, 0, 2, 0, 0, 0],
  [0, 0, 0, 0, 0, 0, 0, 0],
  [2, 0, 0, -2, 2, 0, 0, 0],
  [2, 0, 0, -2, 2, 0, 0, 0],
  [0, 4, 0, 0, 2, 0, 0, 0],
  [0, 4, 0, 0, 2, 0, 0, 0],
  [0, 4, 0, 0, 2, 0, 0, 0],
  [4, -2, 0, -2, 2, 0, 0, 0],
  [4, 0, 0, -2, 2, 0, 2, 0],
  [2, 0, 0, -2, 2, 0, 0, 0],
  [-4, 4, 0, 2, 0, 0, 0, 0],
  [-4, 4, 0, 2, 0, 0, 0, 0],
  [0, 0, 0, 2, 0, 0, 0, 0],
  [0, 0, -2, 2, 0, 0, 0, 0],
  [0, 0, 0, 0, 0, 0, 0, 0],
  [0, 0, 0, 0, 0, 0, 0, 0],
  [0, 0, 0, 0, 0, 0, 0, 0],
  [0, 0, 0, 0, 0, 0, 0, 0],
  [0, 0, 0, 0, 0, 0, 0, 0],
  [0, 0, 0, 0, 0, 0, 0, 0],
  [0, 0, 0, 0, 0, 0, 0, 0],
  [0, 0, 0, 0, 0, 0, 0, 0],
  [0, 0, 0, 0, 0, 0, 0, 0]]

/-- code points of the labels -/
def l_c_quantum : List (List Nat) := []
/-- class number and code points of the name -/
def k_c_quantum : List (Nat × List Nat) := [(12, [109, 111, 108, 97, 114, 95, 80, 108, 97, 110, 99, 107, 95, 99, 111, 110, 115, 116, 97, 110, 116]), (12, [109, 111, 108, 97, 114, 95, 80, 108, 97, 110, 99, 107, 95, 99, 111, 110, 115, 116, 97, 110, 116, 95, 116, 105, 109, 101, 115, 95, 99]), (12, [80, 108, 97, 110, 99, 107, 95, 99, 111, 110, 115, 116, 97, 110, 116]), (12, [80, 108, 97, 110, 99, 107, 95, 99, 111, 110, 115, 116, 97, 110, 116, 95, 111, 118, 101, 114, 95, 50, 95, 112, 105]), (12, [113, 117, 97, 110, 116, 117, 109, 95, 111, 102, 95, 99, 105, 114, 99, 117, 108, 97, 116, 105, 111, 110]), (12, [113, 117, 97, 110, 116, 117, 109, 95, 111, 102, 95, 99, 105, 114, 99, 117, 108, 97, 116, 105, 111, 110, 95, 116, 105, 109, 101, 115, 95, 50]), (12, [80, 108, 97, 110, 99, 107, 95, 108, 101, 110, 103, 116, 104]), (12, [80, 108, 97, 110, 99, 107, 95, 109, 97, 115, 115]), (12, [80, 108, 97, 110, 99, 107, 95, 116, 101, 109, 112, 101, 114, 97, 116, 117, 114, 101]), (12, [80, 108, 97, 110, 99, 107, 95, 116, 105, 109, 101]), (12, [82, 121, 100, 98, 101, 114, 103, 95, 99, 111, 110, 115, 116, 97, 110, 116]), (12, [82, 121, 100, 98, 101, 114, 103, 95, 99, 111, 110, 115, 116, 97, 110, 116, 95, 116, 105, 109, 101, 115, 95, 99, 95, 105, 110, 95, 72, 122]), (12, [82, 121, 100, 98, 101, 114, 103, 95, 99, 111, 110, 115, 116, 97, 110, 116, 95, 116, 105, 109, 101, 115, 95, 104, 99, 95, 105, 110, 95, 101, 86]), (12, [82, 121, 100, 98, 101, 114, 103, 95, 99, 111, 110, 115, 116, 97, 110, 116, 95, 116, 105, 109, 101, 115, 95, 104, 99, 95, 105, 110, 95, 74]), (12, [99, 111, 110, 100, 117, 99, 116, 97, 110, 99, 101, 95, 113, 117, 97, 110, 116, 117, 109]), (12, [99, 111, 110, 118, 101, 110, 116, 105, 111, 110, 97, 108, 95, 118, 97, 108, 117, 101, 95, 111, 102, 95, 74, 111, 115, 101, 112, 104, 115, 111, 110, 95, 99, 111, 110, 115, 116, 97, 110, 116]), (12, [99, 111, 110, 118, 101, 110, 116, 105, 111, 110, 97, 108, 95, 118, 97, 108, 117, 101, 95, 111, 102, 95, 118, 111, 110, 95, 75, 108, 105, 116, 122, 105, 110, 103, 95, 99, 111, 110, 115, 116, 97, 110, 116]), (12, [70, 101, 114, 109, 105, 95, 99, 111, 117, 112, 108, 105, 110, 103, 95, 99, 111, 110, 115, 116, 97, 110, 116]), (12, [102, 105, 110, 101, 95, 115, 116, 114, 117, 99, 116, 117, 114, 101, 95, 99, 111, 110, 115, 116, 97, 110, 116]), (12, [105, 110, 118, 101, 114, 115, 101, 95, 102, 105, 110, 101, 95, 115, 116, 114, 117, 99, 116, 117, 114, 101, 95, 99, 111, 110, 115, 116, 97, 110, 116]), (12, [102, 105, 114, 115, 116, 95, 114, 97, 100, 105, 97, 116, 105, 111, 110, 95, 99, 111, 110, 115, 116, 97, 110, 116]), (12, [102, 105, 114, 115, 116, 95, 114, 97, 100, 105, 97, 116, 105, 111, 110, 95, 99, 111, 110, 115, 116, 97, 110, 116, 95, 102, 111, 114, 95, 115, 112, 101, 99, 116, 114, 97, 108, 95, 114, 97, 100, 105, 97, 110, 99, 101]), (12, [105, 110, 118, 101, 114, 115, 101, 95, 111, 102, 95, 99, 111, 110, 100, 117, 99, 116, 97, 110, 99, 101, 95, 113, 117, 97, 110, 116, 117, 109]), (12, [74, 111, 115, 101, 112, 104, 115, 111, 110, 95, 99, 111, 110, 115, 116, 97, 110, 116]), (12, [109, 97, 103, 110, 101, 116, 105, 99, 95, 102, 108, 117, 120, 95, 113, 117, 97, 110, 116, 117, 109]), (12, [78, 101, 119, 116, 111, 110, 105, 97, 110, 95, 99, 111, 110, 115, 116, 97, 110, 116, 95, 111, 102, 95, 103, 114, 97, 118, 105, 116, 97, 116, 105, 111, 110, 95, 111, 118, 101, 114, 95, 104, 95, 98, 97, 114, 95, 99]), (12, [83, 97, 99, 107, 117, 114, 95, 84, 101, 116, 114, 111, 100, 101, 95, 99, 111, 110, 115, 116, 97, 110, 116, 95, 83, 84, 95, 49, 48, 48, 107, 80, 97]), (12, [83, 97, 99, 107, 117, 114, 95, 84, 101, 116, 114, 111, 100, 101, 95, 99, 111, 110, 115, 116, 97, 110, 116, 95, 83, 84, 80]), (12, [115, 101, 99, 111, 110, 100, 95, 114, 97, 100, 105, 97, 116, 105, 111, 110, 95, 99, 111, 110, 115, 116, 97, 110, 116]), (12, [83, 116, 101, 102, 97, 110, 95, 66, 111, 108, 116, 122, 109, 97, 110, 110, 95, 99, 111, 110, 115, 116, 97, 110, 116]), (12, [118, 111, 110, 95, 75, 108, 105, 116, 122, 105, 110, 103, 95, 99, 111, 110, 115, 116, 97, 110, 116]), (12, [87, 105, 101, 110, 95, 102, 114, 101, 113, 117, 101, 110, 99, 121, 95, 100, 105, 115, 112, 108, 97, 99, 101, 109, 101, 110, 116, 95, 108, 97, 119, 95, 99, 111, 110, 115, 116, 97, 110, 116]), (12, [87, 105, 101, 110, 95, 119, 97, 118, 101, 108, 101, 110, 103, 116, 104, 95, 100, 105, 115, 112, 108, 97, 99, 101, 109, 101, 110, 116, 95, 108, 97, 119, 95, 99, 111, 110, 115, 116, 97, 110, 116]), (12, [80, 108, 97, 110, 99, 107, 95, 99, 111, 110, 115, 116, 97, 110, 116, 95, 105, 110, 95, 101, 86, 95, 115]), (12, [80, 108, 97, 110, 99, 107, 95, 99, 111, 110, 115, 116, 97, 110, 116, 95, 111, 118, 101, 114, 95, 50, 95, 112, 105, 95, 105, 110, 95, 101, 86, 95, 115]), (12, [80, 108, 97, 110, 99, 107, 95, 99, 111, 110, 115, 116, 97, 110, 116, 95, 111, 118, 101, 114, 95, 50, 95, 112, 105, 95, 116, 105, 109, 101, 115, 95, 99, 95, 105, 110, 95, 77, 101, 86, 95, 102, 109]), (12, [80, 108, 97, 110, 99, 107, 95, 109, 97, 115, 115, 95, 101, 110, 101, 114, 103, 121, 95, 101, 113, 117, 105, 118, 97, 108, 101, 110, 116, 95, 105, 110, 95, 71, 101, 86])]
/-- twice the exponents in the base units -/
def d_c_quantum : List (List Int) := [
  [-2, 4, -2, 2, 0, 0, 0, 0],
  [-4, 6, -2, 2, 0, 0, 0, 0],
  [-2, 4, 0, 2, 0, 0, 0, 0],
  [-2, 4, 0, 2, 0, 0, 0, 0],
  [-2, 4, 0, 0, 0, 0, 0, 0],
  [-2, 4, 0, 0, 0, 0, 0, 0],
  [0, 2, 0, 0, 0, 0, 0, 0],
  [0, 0, 0, 2, 0, 0, 0, 0],
  [0, 0, 0, 0, 0, 0, 2, 0],
  [2, 0, 0, 0, 0, 0, 0, 0],
  [0, -2, 0, 0, 0, 0, 0, 0],
  [-2, 0, 0, 0, 0, 0, 0, 0],
  [-4, 4, 0, 2, 0, 0, 0, 0],
  [-4, 4, 0, 2, 0, 0, 0, 0],
  [6, -4, 0, -2, 4, 0, 0, 0],
  [4, -4, 0, -2, 2, 0, 0, 0],
  [-6, 4, 0, 2, -4, 0, 0, 0],
  [8, -8, 0, -4, 0, 0, 0, 0],
  [0, 0, 0, 0, 0, 0, 0, 0],
  [0, 0, 0, 0, 0, 0, 0, 0],
  [-6, 8, 0, 2, 0, 0, 0, 0],
  [-6, 8, 0, 2, 0, 0, 0, 0],
  [-6, 4, 0, 2, -4, 0, 0, 0],
  [4, -4, 0, -2, 2, 0, 0, 0],
  [-4, 4, 0, 2, -2, 0, 0, 0],
  [0, 0, 0, -4, 0, 0, 0, 0],
  [0, 0, 0, 0, 0, 0, 0, 0],
  [0, 0, 0, 0, 0, 0, 0, 0],
  [0, 2, 0, 0, 0, 0, 2, 0],
  [-6, 0, 0, 2, 0, 0, -8, 0],
  [-6, 4, 0, 2, -4, 0, 0, 0],
  [-2, 0, 0, 0, 0, 0, -2, 0],
  [0, 2, 0, 0, 0, 0, 2, 0],
  [-2, 4, 0, 2, 0, 0, 0, 0],
  [-2, 4, 0, 2, 0, 0, 0, 0],
  [-4, 6, 0, 2, 0, 0, 0, 0],
  [-4, 4, 0, 2, 0, 0, 0, 0]]

/-- code points of the labels -/
def l_c_relationships : List (List Nat) := []
/-- class number and code points of the name -/
def k_c_relationships : List (Nat × List Nat) := [(12, [104, 101, 114, 116, 122, 95, 105, 110, 118, 101, 114, 115, 101, 95, 109, 101, 116, 101, 114, 95, 114, 101, 108, 97, 116, 105, 111, 110, 115, 104, 105, 112]), (12, [104, 101, 114, 116, 122, 95, 106, 111, 117, 108, 101, 95, 114, 101, 108, 97, 116, 105, 111, 110, 115, 104, 105, 112]), (12, [104, 101, 114, 116, 122, 95, 107, 101, 108, 118, 105, 110, 95, 114, 101, 108, 97, 116, 105, 111, 110, 115, 104, 105, 112]), (12, [104, 101, 114, 116, 122, 95, 107, 105, 108, 111, 103, 114, 97, 109, 95, 114, 101, 108, 97, 116, 105, 111, 110, 115, 104, 105, 112]), (12, [105, 110, 118, 101, 114, 115, 101, 95, 109, 101, 116, 101, 114, 95, 104, 101, 114, 116, 122, 95, 114, 101, 108, 97, 116, 105, 111, 110, 115, 104, 105, 112]), (12, [105, 110, 118, 101, 114, 115, 101, 95, 109, 101, 116, 101, 114, 95, 106, 111, 117, 108, 101, 95, 114, 101, 108, 97, 116, 105, 111, 110, 115, 104, 105, 112]), (12, [105, 110, 118, 101, 114, 115, 101, 95, 109, 101, 116, 101, 114, 95, 107, 101, 108, 118, 105, 110, 95, 114, 101, 108, 97, 116, 105, 111, 110, 115, 104, 105, 112]), (12, [105, 110, 118, 101, 114, 115, 101, 95, 109, 101, 116, 101, 114, 95, 107, 105, 108, 111, 103, 114, 97, 109, 95, 114, 101, 108, 97, 116, 105, 111, 110, 115, 104, 105, 112]), (12, [106, 111, 117, 108, 101, 95, 104, 101, 114, 116, 122, 95, 114, 101, 108, 97, 116, 105, 111, 110, 115, 104, 105, 112]), (12, [106, 111, 117, 108, 101, 95, 105, 110, 118, 101, 114, 115, 101, 95, 109, 101, 116, 101, 114, 95, 114, 101, 108, 97, 116, 105, 111, 110, 115, 104, 105, 112]), (12, [106, 111, 117, 108, 101, 95, 107, 101, 108, 118, 105, 110, 95, 114, 101, 108, 97, 116, 105, 111, 110, 115, 104, 105, 112]), (12, [106, 111, 117, 108, 101, 95, 107, 105, 108, 111, 103, 114, 97, 109, 95, 114, 101, 108, 97, 116, 105, 111, 110, 115, 104, 105, 112]), (12, [107, 101, 108, 118, 105, 110, 95, 104, 101, 114, 116, 122, 95, 114, 101, 108, 97, 116, 105, 111, 110, 115, 104, 105, 112]), (12, [107, 101, 108, 118, 105, 110, 95, 105, 110, 118, 101, 114, 115, 101, 95, 109, 101, 116, 101, 114, 95, 114, 101, 108, 97, 116, 105, 111, 110, 115, 104, 105, 112]), (12, [107, 101, 108, 118, 105, 110, 95, 106, 111, 117, 108, 101, 95, 114, 101, 108, 97, 116, 105, 111, 110, 115, 104, 105, 112]), (12, [107, 101, 108, 118, 105, 110, 95, 107, 105, 108, 111, 103, 114, 97, 109, 95, 114, 101, 108, 97, 116, 105, 111, 110, 115, 104, 105, 112]), (12, [107, 105, 108, 111, 103, 114, 97, 109, 95, 104, 101, 114, 116, 122, 95, 114, 101, 108, 97, 116, 105, 111, 110, 115, 104, 105, 112]), (12, [107, 105, 108, 111, 103, 114, 97, 109, 95, 105, 110, 118, 101, 114, 115, 101, 95, 109, 101, 116, 101, 114, 95, 114, 101, 108, 97, 116, 105, 111, 110, 115, 104, 105, 112]), (12, [107, 105, 108, 111, 103, 114, 97, 109, 95, 106, 111, 117, 108, 101, 95, 114, 101, 108, 97, 116, 105, 111, 110, 115, 104, 105, 112]), (12, [107, 105, 108, 111, 103, 114, 97, 109, 95, 107, 101, 108, 118, 105, 110, 95, 114, 101, 108, 97, 116, 105, 111, 110, 115, 104, 105, 112])]
/-- twice the exponents in the base units -/
def d_c_relationships : List (List Int) := [
  [0, -2, 0, 0, 0, 0, 0, 0],
  [-4, 4, 0, 2, 0, 0, 0, 0],
  [0, 0, 0, 0, 0, 0, 2, 0],
  [0, 0, 0, 2, 0, 0, 0, 0],
  [-2, 0, 0, 0, 0, 0, 0, 0],
  [-4, 4, 0, 2, 0, 0, 0, 0],
  [0, 0, 0, 0, 0, 0, 2, 0],
  [0, 0, 0, 2, 0, 0, 0, 0],
  [-2, 0, 0, 0, 0, 0, 0, 0],
  [0, -2, 0, 0, 0, 0, 0, 0],
  [0, 0, 0, 0, 0, 0, 2, 0],
  [0, 0, 0, 2, 0, 0, 0, 0],
  [-2, 0, 0, 0, 0, 0, 0, 0],
  [0, -2, 0, 0, 0, 0, 0, 0],
  [-4, 4, 0, 2, 0, 0, 0, 0],
  [0, 0, 0, 2, 0, 0, 0, 0],
  [-2, 0, 0, 0, 0, 0, 0, 0],
  [0, -2, 0, 0, 0, 0, 0, 0],
  [-4, 4, 0, 2, 0, 0, 0, 0],
  [0, 0, 0, 0, 0, 0, 2, 0]]

/-- code points of the labels -/
def l_c_statisticalmechanics : List (List Nat) := []
/-- class number and code points of the name -/
def k_c_statisticalmechanics : List (Nat × List Nat) := [(12, [65, 118, 111, 103, 97, 100, 114, 111, 95, 99, 111, 110, 115, 116, 97, 110, 116]), (12, [76, 111, 115, 99, 104, 109, 105, 100, 116, 95, 99, 111, 110, 115, 116, 97, 110, 116]), (12, [109, 111, 108, 97, 114, 95, 103, 97, 115, 95, 99, 111, 110, 115, 116, 97, 110, 116]), (12, [66, 111, 108, 116, 122, 109, 97, 110, 110, 95, 99, 111, 110, 115, 116, 97, 110, 116]), (12, [66, 111, 108, 116, 122, 109, 97, 110, 110, 95, 99, 111, 110, 115, 116, 97, 110, 116, 95, 105, 110, 95, 101, 86, 95, 112, 101, 114, 95, 75]), (12, [66, 111, 108, 116, 122, 109, 97, 110, 110, 95, 99, 111, 110, 115, 116, 97, 110, 116, 95, 105, 110, 95, 72, 122, 95, 112, 101, 114, 95, 75]), (12, [66, 111, 108, 116, 122, 109, 97, 110, 110, 95, 99, 111, 110, 115, 116, 97, 110, 116, 95, 105, 110, 95, 105, 110, 118, 101, 114, 115, 101, 95, 109, 101, 116, 101, 114, 115, 95, 112, 101, 114, 95, 107, 101, 108, 118, 105, 110]), (12, [109, 111, 108, 97, 114, 95, 109, 97, 115, 115, 95, 99, 111, 110, 115, 116, 97, 110, 116]), (12, [109, 111, 108, 97, 114, 95, 118, 111, 108, 117, 109, 101, 95, 111, 102, 95, 105, 100, 101, 97, 108, 95, 103, 97, 115, 95, 83, 84, 95, 49, 48, 48, 107, 80, 97]), (12, [109, 111, 108, 97, 114, 95, 118, 111, 108, 117, 109, 101, 95, 111, 102, 95, 105, 100, 101, 97, 108, 95, 103, 97, 115, 95, 83, 84, 80]), (12, [109, 111, 108, 97, 114, 95, 118, 111, 108, 117, 109, 101, 95, 111, 102, 95, 115, 105, 108, 105, 99, 111, 110])]
/-- twice the exponents in the base units -/
def d_c_statisticalmechanics : List (List Int) := [
  [0, 0, -2, 0, 0, 0, 0, 0],
  [0, -6, 0, 0, 0, 0, 0, 0],
  [-4, 4, -2, 2, 0, 0, -2, 0],
  [-4, 4, 0, 2, 0, 0, -2, 0],
  [-4, 4, 0, 2, 0, 0, -2, 0],
  [-2, 0, 0, 0, 0, 0, -2, 0],
  [0, -2, 0, 0, 0, 0, -2, 0],
  [0, 0, -2, 2, 0, 0, 0, 0],
  [0, 6, -2, 0, 0, 0, 0, 0],
  [0, 6, -2, 0, 0, 0, 0, 0],
  [0, 6, -2, 0, 0, 0, 0, 0]]

/-- code points of the labels -/
def l_c_tau : List (List Nat) := []
/-- class number and code points of the name -/
def k_c_tau : List (Nat × List Nat) := [(12, [116, 97, 117, 95, 109, 97, 115, 115]), (12, [116, 97, 117, 95, 67, 111, 109, 112, 116, 111, 110, 95, 119, 97, 118, 101, 108, 101, 110, 103, 116, 104]), (12, [116, 97, 117, 95, 67, 111, 109, 112, 116, 111, 110, 95, 119, 97, 118, 101, 108, 101, 110, 103, 116, 104, 95, 111, 118, 101, 114, 95, 50, 95, 112, 105]), (12, [116, 97, 117, 95, 109, 97, 115, 115, 95, 101, 110, 101, 114, 103, 121, 95, 101, 113, 117, 105, 118, 97, 108, 101, 110, 116]), (12, [116, 97, 117, 95, 109, 97, 115, 115, 95, 101, 110, 101, 114, 103, 121, 95, 101, 113, 117, 105, 118, 97, 108, 101, 110, 116, 95, 105, 110, 95, 77, 101, 86]), (12, [116, 97, 117, 95, 109, 97, 115, 115, 95, 105, 110, 95, 117]), (12, [116, 97, 117, 95, 109, 111, 108, 97, 114, 95, 109, 97, 115, 115]), (12, [116, 97, 117, 95, 101, 108, 101, 99, 116, 114, 111, 110, 95, 109, 97, 115, 115, 95, 114, 97, 116, 105, 111]), (12, [116, 97, 117, 95, 109, 117, 111, 110, 95, 109, 97, 115, 115, 95, 114, 97, 116, 105, 111]), (12, [116, 97, 117, 95, 110, 101, 117, 116, 114, 111, 110, 95, 109, 97, 115, 115, 95, 114, 97, 116, 105, 111]), (12, [116, 97, 117, 95, 112, 114, 111, 116, 111, 110, 95, 109, 97, 115, 115, 95, 114, 97, 116, 105, 111])]
/-- twice the exponents in the base units -/
def d_c_tau : List (List Int) := [
  [0, 0, 0, 2, 0, 0, 0, 0],
  [0, 2, 0, 0, 0, 0, 0, 0],
  [0, 2, 0, 0, 0, 0, 0, 0],
  [-4, 4, 0, 2, 0, 0, 0, 0],
  [-4, 4, 0, 2, 0, 0, 0, 0],
  [0, 0, 0, 2, 0, 0, 0, 0],
  [0, 0, -2, 2, 0, 0, 0, 0],
  [0, 0, 0, 0, 0, 0, 0, 0],
  [0, 0, 0, 0, 0, 0, 0, 0],
  [0, 0, 0, 0, 0, 0, 0, 0],
  [0, 0, 0, 0, 0, 0, 0, 0]]

/-- code points of the labels -/
def l_c_triton : List (List Nat) := []
/-- class number and code points of the name -/
def k_c_triton : List (Nat × List Nat) := [(12, [116, 114, 105, 116, 111, 110, 95, 109, 97, 115, 115]), (12, [116, 114, 105, 116, 111, 110, 95, 103, 95, 102, 97, 99, 116, 111, 114]), (12, [116, 114, 105, 116, 111, 110, 95, 109, 97, 103, 110, 101, 116, 105, 99, 95, 109, 111, 109, 101, 110, 116]), (12, [116, 114, 105, 116, 111, 110, 95, 109, 97, 115, 115, 95, 101, 110, 101, 114, 103, 121, 95, 101, 113, 117, 105, 118, 97, 108, 101, 110, 116]), (12, [116, 114, 105, 116, 111, 110, 95, 109, 97, 115, 115, 95, 101, 110, 101, 114, 103, 121, 95, 101, 113, 117, 105, 118, 97, 108, 101, 110, 116, 95, 105, 110, 95, 77, 101, 86]), (12, [116, 114, 105, 116, 111, 110, 95, 109, 97, 115, 115, 95, 105, 110, 95, 117]), (12, [116, 114, 105, 116, 111, 110, 95, 109, 111, 108, 97, 114, 95, 109, 97, 115, 115]), (12, [116, 114, 105, 116, 111, 110, 95, 101, 108, 101, 99, 116, 114, 111, 110, 95, 109, 97, 115, 115, 95, 114, 97, 116, 105, 111]), (12, [116, 114, 105, 116, 111, 110, 95, 112, 114, 111, 116, 111, 110, 95, 109, 97, 115, 115, 95, 114, 97, 116, 105, 111]), (12, [116, 114, 105, 116, 111, 110, 95, 101, 108, 101, 99, 116, 114, 111, 110, 95, 109, 97, 103, 110, 101, 116, 105, 99, 95, 109, 111, 109, 101, 110, 116, 95, 114, 97, 116, 105, 111]), (12, [116, 114, 105, 116, 111, 110, 95, 109, 97, 103, 110, 101, 116, 105, 99, 95, 109, 111, 109, 101, 110, 116, 95, 116, 111, 95, 66, 111, 104, 114, 95, 109, 97, 103, 110, 101, 116, 111, 110, 95, 114, 97, 116, 105, 111]), (12, [116, 114, 105, 116, 111, 110, 95, 109, 97, 103, 110, 101, 116, 105, 99, 95, 109, 111, 109, 101, 110, 116, 95, 116, 111, 95, 110, 117, 99, 108, 101, 97, 114, 95, 109, 97, 103, 110, 101, 116, 111, 110, 95, 114, 97, 116, 105, 111]), (12, [116, 114, 105, 116, 111, 110, 95, 110, 101, 117, 116, 114, 111, 110, 95, 109, 97, 103, 110, 101, 116, 105, 99, 95, 109, 111, 109, 101, 110, 116, 95, 114, 97, 116, 105, 111]), (12, [116, 114, 105, 116, 111, 110, 95, 112, 114, 111, 116, 111, 110, 95, 109, 97, 103, 110, 101, 116, 105, 99, 95, 109, 111, 109, 101, 110, 116, 95, 114, 97, 116, 105, 111])]
/-- twice the exponents in the base units -/
def d_c_triton : List (List Int) := [
  [0, 0, 0, 2, 0, 0, 0, 0],
  [0, 0, 0, 0, 0, 0, 0, 0],
  [0, 4, 0, 0, 2, 0, 0, 0],
  [-4, 4, 0, 2, 0, 0, 0, 0],
  [-4, 4, 0, 2, 0, 0, 0, 0],
  [0, 0, 0, 2, 0, 0, 0, 0],
  [0, 0, -2, 2, 0, 0, 0, 0],
  [0, 0, 0, 0, 0, 0, 0, 0],
  [0, 0, 0, 0, 0, 0, 0, 0],
  [0, 0, 0, 0, 0, 0, 0, 0],
  [0, 0, 0, 0, 0, 0, 0, 0],
  [0, 0, 0, 0, 0, 0, 0, 0],
  [0, 0, 0, 0, 0, 0, 0, 0],
  [0, 0, 0, 0, 0, 0, 0, 0]]

/-- code points of the labels -/
def l_c_weak : List (List Nat) := []
/-- class number and code points of the name -/
def k_c_weak : List (Nat × List Nat) := [(12, [119, 101, 97, 107, 95, 109, 105, 120, 105, 110, 103, 95, 97, 110, 103, 108, 101])]
/-- twice the exponents in the base units -/
def d_c_weak : List (List Int) := [
  [0, 0, 0, 0, 0, 0, 0, 0]]

/-- code points of the labels -/
def l_c_xray : List (List Nat) := []
/-- class number and code points of the name -/
def k_c_xray : List (Nat × List Nat) := [(12, [65, 110, 103, 115, 116, 114, 111, 109, 95, 115, 116, 97, 114]), (12, [115, 105, 108, 105, 99, 111, 110, 95, 50, 50, 48, 95, 108, 97, 116, 116, 105, 99, 101, 95, 115, 112, 97, 99, 105, 110, 103]), (12, [67, 117, 95, 120, 95, 117, 110, 105, 116]), (12, [108, 97, 116, 116, 105, 99, 101, 95, 112, 97, 114, 97, 109, 101, 116, 101, 114, 95, 111, 102, 95, 115, 105, 108, 105, 99, 111, 110]), (12, [77, 111, 95, 120, 95, 117, 110, 105, 116])]
/-- twice the exponents in the base units -/
def d_c_xray : List (List Int) := [
  [0, 2, 0, 0, 0, 0, 0, 0],
  [0, 2, 0, 0, 0, 0, 0, 0],
  [0, 2, 0, 0, 0, 0, 0, 0],
  [0, 2, 0, 0, 0, 0, 0, 0],
  [0, 2, 0, 0, 0, 0, 0, 0]]

/-- labelCodes of all rows -/
def labelCodes : List (List Nat) :=
  l_t_unitquantity ++
  l_t_time ++
  l_t_length ++
  l_t_acceleration ++
  l_t_angle ++
  l_t_area ++
  l_t_compound ++
  l_t_substance ++
  l_t_volume ++
  l_t_concentration ++
  l_t_dimensionless ++
  l_t_mass ++
  l_t_force ++
  l_t_energy ++
  l_t_velocity ++
  l_t_electromagnetism ++
  l_t_frequency ++
  l_t_temperature ++
  l_t_power ++
  l_t_heat ++
  l_t_information ++
  l_t_pressure ++
  l_t_radiation ++
  l_t_viscosity ++
  l_c_alpha ++
  l_c_astronomy ++
  l_c_atomicunits ++
  l_c_deuteron ++
  l_c_electromagnetism ++
  l_c_electron ++
  l_c_helion ++
  l_c_mathematical ++
  l_c_muon ++
  l_c_naturalunits ++
  l_c_neutron ++
  l_c_proton ++
  l_c_quantum ++
  l_c_relationships ++
  l_c_statisticalmechanics ++
  l_c_tau ++
  l_c_triton ++
  l_c_weak ++
  l_c_xray

/-- keyCodes of all rows -/
def keyCodes : List (Nat × List Nat) :=
  k_t_unitquantity ++
  k_t_time ++
  k_t_length ++
  k_t_acceleration ++
  k_t_angle ++
  k_t_area ++
  k_t_compound ++
  k_t_substance ++
  k_t_volume ++
  k_t_concentration ++
  k_t_dimensionless ++
  k_t_mass ++
  k_t_force ++
  k_t_energy ++
  k_t_velocity ++
  k_t_electromagnetism ++
  k_t_frequency ++
  k_t_temperature ++
  k_t_power ++
  k_t_heat ++
  k_t_information ++
  k_t_pressure ++
  k_t_radiation ++
  k_t_viscosity ++
  k_c_alpha ++
  k_c_astronomy ++
  k_c_atomicunits ++
  k_c_deuteron ++
  k_c_electromagnetism ++
  k_c_electron ++
  k_c_helion ++
  k_c_mathematical ++
  k_c_muon ++
  k_c_naturalunits ++
  k_c_neutron ++
  k_c_proton ++
  k_c_quantum ++
  k_c_relationships ++
  k_c_statisticalmechanics ++
  k_c_tau ++
  k_c_triton ++
  k_c_weak ++
  k_c_xray

/-- dims of all rows -/
def dims : List (List Int) :=
  d_t_unitquantity ++
  d_t_time ++
  d_t_length ++
  d_t_acceleration ++
  d_t_angle ++
  d_t_area ++
  d_t_compound ++
  d_t_substance ++
  d_t_volume ++
  d_t_concentration ++
  d_t_dimensionless ++
  d_t_mass ++
  d_t_force ++
  d_t_energy ++
  d_t_velocity ++
  d_t_electromagnetism ++
  d_t_frequency ++
  d_t_temperature ++
  d_t_power ++
  d_t_heat ++
  d_t_information ++
  d_t_pressure ++
  d_t_radiation ++
  d_t_viscosity ++
  d_c_alpha ++
  d_c_astronomy ++
  d_c_atomicunits ++
  d_c_deuteron ++
  d_c_electromagnetism ++
  d_c_electron ++
  d_c_helion ++
  d_c_mathematical ++
  d_c_muon ++
  d_c_naturalunits ++
  d_c_neutron ++
  d_c_proton ++
  d_c_quantum ++
  d_c_relationships ++
  d_c_statisticalmechanics ++
  d_c_tau ++
  d_c_triton ++
  d_c_weak ++
  d_c_xray

end PQ.Shipped
