import Verif.Spec.Physical
import Mathlib.Algebra.BigOperators.Group.List.Basic

/-!
# Standard values of units

Taken from the SI Brochure, NIST Special Publication 811 and IEC 80000-13, not from the library.
-/

namespace PQ

/-- The SI prefixes and the binary prefixes: `(name, p, q)` stands for the factor `p / q`. -/
def prefixes : List (String × Nat × Nat) :=
  [("yotta", 10 ^ 24, 1), ("zetta", 10 ^ 21, 1), ("exa", 10 ^ 18, 1), ("peta", 10 ^ 15, 1), ("tera", 10 ^ 12, 1),
   ("giga", 10 ^ 9, 1), ("mega", 10 ^ 6, 1), ("kilo", 10 ^ 3, 1), ("hecto", 10 ^ 2, 1), ("deka", 10, 1), ("deca", 10, 1),
   ("deci", 1, 10), ("centi", 1, 10 ^ 2), ("milli", 1, 10 ^ 3), ("micro", 1, 10 ^ 6), ("nano", 1, 10 ^ 9),
   ("pico", 1, 10 ^ 12), ("femto", 1, 10 ^ 15), ("atto", 1, 10 ^ 18), ("zepto", 1, 10 ^ 21), ("yocto", 1, 10 ^ 24),
   ("kibi", 2 ^ 10, 1), ("mebi", 2 ^ 20, 1), ("gibi", 2 ^ 30, 1), ("tebi", 2 ^ 40, 1), ("pebi", 2 ^ 50, 1),
   ("exbi", 2 ^ 60, 1), ("zebi", 2 ^ 70, 1), ("yobi", 2 ^ 80, 1)]

/-- A standard definition: the unit `label` is `p / q * π ^ pi` times a product of powers of units. -/
structure Standard where
  label : String
  p : Nat
  q : Nat
  pi : Int
  units : List (String × Int)

/-- The definition holds in a state of the library, in which every unit goes by the name the registry binds. -/
def Standard.Holds {K : Type _} [Field K] [LinearOrder K] [RPow K] (w : World K) (π : K) (s : Standard) : Prop :=
  ∃ (u : UKey) (us : List UKey), Dict.get? w.registry s.label = some u ∧
    List.Forall₂ (fun (x : String × Int) k => Dict.get? w.registry x.1 = some k) s.units us ∧
    ∀ v : Valuation w, v.size (unitDim u) = (s.p : K) / s.q * π ^ s.pi *
      (List.zipWith (fun (x : String × Int) k => v.size (unitDim k) ^ x.2) s.units us).prod

/-- Standard definitions of common units. -/
def standards : List Standard := [
  -- time
  ⟨"minute", 60, 1, 0, [("second", 1)]⟩, ⟨"hour", 60, 1, 0, [("minute", 1)]⟩, ⟨"day", 24, 1, 0, [("hour", 1)]⟩,
  ⟨"week", 7, 1, 0, [("day", 1)]⟩, ⟨"fortnight", 14, 1, 0, [("day", 1)]⟩, ⟨"Julian_year", 36525, 100, 0, [("day", 1)]⟩,
  ⟨"common_year", 365, 1, 0, [("day", 1)]⟩, ⟨"leap_year", 366, 1, 0, [("day", 1)]⟩,
  ⟨"Gregorian_year", 3652425, 10000, 0, [("day", 1)]⟩, ⟨"shake", 1, 10 ^ 8, 0, [("second", 1)]⟩,
  -- length
  ⟨"inch", 254, 10000, 0, [("meter", 1)]⟩, ⟨"foot", 12, 1, 0, [("inch", 1)]⟩, ⟨"yard", 3, 1, 0, [("foot", 1)]⟩,
  ⟨"mile", 5280, 1, 0, [("foot", 1)]⟩, ⟨"nautical_mile", 1852, 1, 0, [("meter", 1)]⟩, ⟨"mil", 1, 1000, 0, [("inch", 1)]⟩,
  ⟨"angstrom", 1, 10 ^ 10, 0, [("meter", 1)]⟩, ⟨"light_year", 9460730472580800, 1, 0, [("meter", 1)]⟩,
  ⟨"US_survey_foot", 1200, 3937, 0, [("meter", 1)]⟩, ⟨"fathom", 6, 1, 0, [("US_survey_foot", 1)]⟩,
  ⟨"rod", 165, 10, 0, [("US_survey_foot", 1)]⟩, ⟨"chain", 66, 1, 0, [("US_survey_foot", 1)]⟩,
  ⟨"furlong", 660, 1, 0, [("US_survey_foot", 1)]⟩, ⟨"printers_point", 1, 72, 0, [("inch", 1)]⟩,
  ⟨"pica", 12, 1, 0, [("printers_point", 1)]⟩, ⟨"kayser", 1, 1, 0, [("centimeter", -1)]⟩,
  -- area and volume
  ⟨"are", 100, 1, 0, [("meter", 2)]⟩, ⟨"hectare", 100, 1, 0, [("are", 1)]⟩, ⟨"barn", 1, 10 ^ 28, 0, [("meter", 2)]⟩,
  ⟨"acre", 4840, 1, 0, [("yard", 2)]⟩, ⟨"US_survey_acre", 160, 1, 0, [("rod", 2)]⟩,
  ⟨"liter", 1, 1000, 0, [("meter", 3)]⟩, ⟨"stere", 1, 1, 0, [("meter", 3)]⟩,
  ⟨"cubic_centimeter", 1, 1, 0, [("centimeter", 3)]⟩, ⟨"US_liquid_gallon", 231, 1, 0, [("inch", 3)]⟩,
  ⟨"US_liquid_quart", 1, 4, 0, [("US_liquid_gallon", 1)]⟩, ⟨"US_liquid_pint", 1, 8, 0, [("US_liquid_gallon", 1)]⟩,
  ⟨"cup", 1, 16, 0, [("US_liquid_gallon", 1)]⟩, ⟨"US_liquid_gill", 1, 32, 0, [("US_liquid_gallon", 1)]⟩,
  ⟨"US_fluid_ounce", 1, 128, 0, [("US_liquid_gallon", 1)]⟩, ⟨"tablespoon", 1, 2, 0, [("US_fluid_ounce", 1)]⟩,
  ⟨"teaspoon", 1, 3, 0, [("tablespoon", 1)]⟩, ⟨"fluid_dram", 1, 8, 0, [("US_fluid_ounce", 1)]⟩,
  ⟨"barrel", 42, 1, 0, [("US_liquid_gallon", 1)]⟩, ⟨"UK_liquid_gallon", 454609, 100000, 0, [("liter", 1)]⟩,
  ⟨"UK_liquid_quart", 1, 4, 0, [("UK_liquid_gallon", 1)]⟩, ⟨"UK_liquid_pint", 1, 8, 0, [("UK_liquid_gallon", 1)]⟩,
  ⟨"UK_fluid_ounce", 1, 160, 0, [("UK_liquid_gallon", 1)]⟩, ⟨"Imperial_bushel", 8, 1, 0, [("UK_liquid_gallon", 1)]⟩,
  ⟨"US_dry_quart", 1, 4, 0, [("US_dry_gallon", 1)]⟩, ⟨"US_dry_pint", 1, 8, 0, [("US_dry_gallon", 1)]⟩,
  ⟨"peck", 1, 4, 0, [("US_bushel", 1)]⟩, ⟨"gross_register_ton", 100, 1, 0, [("foot", 3)]⟩,
  ⟨"board_foot", 1, 12, 0, [("foot", 3)]⟩, ⟨"acre_foot", 1, 1, 0, [("acre", 1), ("foot", 1)]⟩,
  -- amount of substance
  ⟨"molar", 1, 1, 0, [("mole", 1), ("liter", -1)]⟩,
  -- mass
  ⟨"gram", 1, 1000, 0, [("kilogram", 1)]⟩, ⟨"tonne", 1000, 1, 0, [("kilogram", 1)]⟩,
  ⟨"pound", 45359237, 10 ^ 8, 0, [("kilogram", 1)]⟩, ⟨"ounce", 1, 16, 0, [("pound", 1)]⟩,
  ⟨"dram", 1, 16, 0, [("ounce", 1)]⟩, ⟨"grain", 1, 7000, 0, [("pound", 1)]⟩, ⟨"stone", 14, 1, 0, [("pound", 1)]⟩,
  ⟨"short_hundredweight", 100, 1, 0, [("pound", 1)]⟩, ⟨"long_hundredweight", 112, 1, 0, [("pound", 1)]⟩,
  ⟨"short_ton", 2000, 1, 0, [("pound", 1)]⟩, ⟨"long_ton", 2240, 1, 0, [("pound", 1)]⟩,
  ⟨"troy_ounce", 480, 1, 0, [("grain", 1)]⟩, ⟨"troy_pound", 12, 1, 0, [("troy_ounce", 1)]⟩,
  ⟨"pennyweight", 24, 1, 0, [("grain", 1)]⟩, ⟨"scruple", 20, 1, 0, [("grain", 1)]⟩, ⟨"drachm", 60, 1, 0, [("grain", 1)]⟩,
  ⟨"carat", 200, 1, 0, [("milligram", 1)]⟩, ⟨"tex", 1, 1, 0, [("gram", 1), ("kilometer", -1)]⟩,
  ⟨"denier", 1, 9, 0, [("tex", 1)]⟩,
  -- force
  ⟨"standard_gravity", 980665, 100000, 0, [("meter", 1), ("second", -2)]⟩,
  ⟨"newton", 1, 1, 0, [("kilogram", 1), ("meter", 1), ("second", -2)]⟩,
  ⟨"dyne", 1, 1, 0, [("gram", 1), ("centimeter", 1), ("second", -2)]⟩,
  ⟨"kilogram_force", 1, 1, 0, [("kilogram", 1), ("standard_gravity", 1)]⟩,
  ⟨"gram_force", 1, 1, 0, [("gram", 1), ("standard_gravity", 1)]⟩,
  ⟨"pound_force", 1, 1, 0, [("pound", 1), ("standard_gravity", 1)]⟩,
  ⟨"ounce_force", 1, 1, 0, [("ounce", 1), ("standard_gravity", 1)]⟩,
  ⟨"poundal", 1, 1, 0, [("pound", 1), ("foot", 1), ("second", -2)]⟩,
  ⟨"kip", 1000, 1, 0, [("pound_force", 1)]⟩, ⟨"ton_force", 2000, 1, 0, [("pound_force", 1)]⟩,
  -- energy and power
  ⟨"joule", 1, 1, 0, [("newton", 1), ("meter", 1)]⟩, ⟨"erg", 1, 1, 0, [("dyne", 1), ("centimeter", 1)]⟩,
  ⟨"calorie", 4184, 1000, 0, [("joule", 1)]⟩, ⟨"international_steam_table_calorie", 41868, 10000, 0, [("joule", 1)]⟩,
  ⟨"British_thermal_unit", 105505585262, 10 ^ 8, 0, [("joule", 1)]⟩, ⟨"EC_therm", 100000, 1, 0, [("British_thermal_unit", 1)]⟩,
  ⟨"watt", 1, 1, 0, [("joule", 1), ("second", -1)]⟩, ⟨"watt_hour", 1, 1, 0, [("watt", 1), ("hour", 1)]⟩,
  ⟨"kilowatt_hour", 1000, 1, 0, [("watt", 1), ("hour", 1)]⟩, ⟨"ton_TNT", 10 ^ 9, 1, 0, [("calorie", 1)]⟩,
  ⟨"horsepower", 550, 1, 0, [("foot", 1), ("pound_force", 1), ("second", -1)]⟩,
  ⟨"metric_horsepower", 75, 1, 0, [("kilogram_force", 1), ("meter", 1), ("second", -1)]⟩,
  ⟨"electric_horsepower", 746, 1, 0, [("watt", 1)]⟩,
  ⟨"refrigeration_ton", 12000, 1, 0, [("British_thermal_unit", 1), ("hour", -1)]⟩,
  -- pressure
  ⟨"pascal", 1, 1, 0, [("newton", 1), ("meter", -2)]⟩, ⟨"bar", 100000, 1, 0, [("pascal", 1)]⟩,
  ⟨"standard_atmosphere", 101325, 1, 0, [("pascal", 1)]⟩, ⟨"torr", 1, 760, 0, [("standard_atmosphere", 1)]⟩,
  ⟨"technical_atmosphere", 1, 1, 0, [("kilogram_force", 1), ("centimeter", -2)]⟩,
  ⟨"psi", 1, 1, 0, [("pound_force", 1), ("inch", -2)]⟩, ⟨"ksi", 1000, 1, 0, [("psi", 1)]⟩,
  ⟨"barye", 1, 1, 0, [("dyne", 1), ("centimeter", -2)]⟩,
  -- electromagnetism
  ⟨"coulomb", 1, 1, 0, [("ampere", 1), ("second", 1)]⟩, ⟨"volt", 1, 1, 0, [("watt", 1), ("ampere", -1)]⟩,
  ⟨"farad", 1, 1, 0, [("coulomb", 1), ("volt", -1)]⟩, ⟨"ohm", 1, 1, 0, [("volt", 1), ("ampere", -1)]⟩,
  ⟨"siemens", 1, 1, 0, [("ohm", -1)]⟩, ⟨"weber", 1, 1, 0, [("volt", 1), ("second", 1)]⟩,
  ⟨"tesla", 1, 1, 0, [("weber", 1), ("meter", -2)]⟩, ⟨"henry", 1, 1, 0, [("weber", 1), ("ampere", -1)]⟩,
  ⟨"gauss", 1, 10000, 0, [("tesla", 1)]⟩, ⟨"maxwell", 1, 1, 0, [("gauss", 1), ("centimeter", 2)]⟩,
  ⟨"gamma", 1, 10 ^ 9, 0, [("tesla", 1)]⟩, ⟨"oersted", 1000, 4, -1, [("ampere", 1), ("meter", -1)]⟩,
  ⟨"gilbert", 10, 4, -1, [("ampere", 1)]⟩, ⟨"abampere", 10, 1, 0, [("ampere", 1)]⟩,
  ⟨"abfarad", 10 ^ 9, 1, 0, [("farad", 1)]⟩, ⟨"abhenry", 1, 10 ^ 9, 0, [("henry", 1)]⟩,
  ⟨"abohm", 1, 10 ^ 9, 0, [("ohm", 1)]⟩, ⟨"abmho", 10 ^ 9, 1, 0, [("siemens", 1)]⟩, ⟨"abvolt", 1, 10 ^ 8, 0, [("volt", 1)]⟩,
  ⟨"speed_of_light", 299792458, 1, 0, [("meter", 1), ("second", -1)]⟩,
  ⟨"magnetic_constant", 4, 10 ^ 7, 1, [("newton", 1), ("ampere", -2)]⟩,
  ⟨"electric_constant", 1, 1, 0, [("magnetic_constant", -1), ("speed_of_light", -2)]⟩,
  -- angle, frequency, speed
  ⟨"turn", 2, 1, 1, [("radian", 1)]⟩, ⟨"degree", 1, 360, 0, [("turn", 1)]⟩, ⟨"arcminute", 1, 60, 0, [("degree", 1)]⟩,
  ⟨"arcsecond", 1, 60, 0, [("arcminute", 1)]⟩, ⟨"grad", 1, 400, 0, [("turn", 1)]⟩,
  ⟨"steradian", 1, 1, 0, [("radian", 2)]⟩, ⟨"hertz", 1, 1, 0, [("second", -1)]⟩,
  ⟨"revolutions_per_minute", 1, 1, 0, [("turn", 1), ("minute", -1)]⟩,
  ⟨"knot", 1, 1, 0, [("nautical_mile", 1), ("hour", -1)]⟩,
  -- temperature differences
  ⟨"celsius", 1, 1, 0, [("kelvin", 1)]⟩, ⟨"rankine", 5, 9, 0, [("kelvin", 1)]⟩, ⟨"fahrenheit", 5, 9, 0, [("celsius", 1)]⟩,
  -- information
  ⟨"byte", 8, 1, 0, [("bit", 1)]⟩, ⟨"baud", 1, 1, 0, [("bit", 1), ("second", -1)]⟩,
  -- radiation, viscosity, dimensionless
  ⟨"becquerel", 1, 1, 0, [("second", -1)]⟩, ⟨"curie", 37 * 10 ^ 9, 1, 0, [("becquerel", 1)]⟩,
  ⟨"gray", 1, 1, 0, [("joule", 1), ("kilogram", -1)]⟩, ⟨"sievert", 1, 1, 0, [("joule", 1), ("kilogram", -1)]⟩,
  ⟨"rem", 1, 100, 0, [("sievert", 1)]⟩, ⟨"rads", 1, 100, 0, [("gray", 1)]⟩,
  ⟨"roentgen", 258, 10 ^ 6, 0, [("coulomb", 1), ("kilogram", -1)]⟩,
  ⟨"poise", 1, 10, 0, [("pascal", 1), ("second", 1)]⟩, ⟨"rhe", 1, 1, 0, [("poise", -1)]⟩,
  ⟨"stokes", 1, 1, 0, [("centimeter", 2), ("second", -1)]⟩, ⟨"percent", 1, 100, 0, []⟩, ⟨"radian", 1, 1, 0, []⟩,
  ⟨"rutherford", 10 ^ 6, 1, 0, [("becquerel", 1)]⟩,
  -- further customary units
  ⟨"US_bushel", 215042, 100, 0, [("inch", 3)]⟩, ⟨"US_dry_gallon", 1, 8, 0, [("US_bushel", 1)]⟩,
  ⟨"US_survey_yard", 3, 1, 0, [("US_survey_foot", 1)]⟩, ⟨"US_survey_mile", 5280, 1, 0, [("US_survey_foot", 1)]⟩,
  ⟨"barleycorn", 1, 3, 0, [("inch", 1)]⟩, ⟨"dtex", 1, 10, 0, [("tex", 1)]⟩,
  ⟨"mmHg", 133322387415, 10 ^ 9, 0, [("pascal", 1)]⟩, ⟨"cmHg", 10, 1, 0, [("mmHg", 1)]⟩, ⟨"inHg", 254, 10, 0, [("mmHg", 1)]⟩,
  ⟨"cmH2O", 980665, 10 ^ 4, 0, [("pascal", 1)]⟩, ⟨"ftH2O", 3048, 100, 0, [("cmH2O", 1)]⟩,
  ⟨"meV", 1, 1000, 0, [("eV", 1)]⟩, ⟨"keV", 1000, 1, 0, [("eV", 1)]⟩, ⟨"MeV", 10 ^ 6, 1, 0, [("eV", 1)]⟩,
  ⟨"GeV", 10 ^ 9, 1, 0, [("eV", 1)]⟩, ⟨"month", 1, 12, 0, [("year", 1)]⟩, ⟨"ampere_turn", 1, 1, 0, [("ampere", 1)]⟩,
  ⟨"characteristic_impedance_of_vacuum", 1, 1, 0, [("magnetic_constant", 1), ("speed_of_light", 1)]⟩,
  ⟨"RSI", 1, 1, 0, [("kelvin", 1), ("meter", 2), ("watt", -1)]⟩,
  ⟨"R_value", 1, 1, 0, [("foot", 2), ("fahrenheit", 1), ("hour", 1), ("British_thermal_unit", -1)]⟩]

/-- Standard symbols and the names they abbreviate. -/
def symbols : List (String × String) :=
  [("rad", "radian"), ("mrad", "milliradian"), ("urad", "microradian"), ("deg", "degree"), ("arcmin", "arcminute"),
   ("arcsec", "arcsecond"), ("sr", "steradian"), ("ha", "hectare"), ("M", "molar"), ("mM", "millimolar"),
   ("uM", "micromolar"), ("A", "ampere"), ("mA", "milliampere"), ("uA", "microampere"), ("nA", "nanoampere"),
   ("pA", "picoampere"), ("C", "coulomb"), ("mC", "millicoulomb"), ("uC", "microcoulomb"), ("V", "volt"),
   ("kV", "kilovolt"), ("mV", "millivolt"), ("uV", "microvolt"), ("F", "farad"), ("mF", "millifarad"),
   ("uF", "microfarad"), ("nF", "nanofarad"), ("pF", "picofarad"), ("S", "siemens"), ("mS", "millisiemens"),
   ("uS", "microsiemens"), ("nS", "nanosiemens"), ("pS", "picosiemens"), ("Wb", "weber"), ("T", "tesla"),
   ("H", "henry"), ("G", "gauss"), ("Mx", "maxwell"), ("Oe", "oersted"), ("Gi", "gilbert"), ("cd", "candela"),
   ("J", "joule"), ("BTU", "British_thermal_unit"), ("eV", "electron_volt"), ("cal", "calorie"), ("Wh", "watt_hour"),
   ("kWh", "kilowatt_hour"), ("MWh", "megawatt_hour"), ("GWh", "gigawatt_hour"), ("N", "newton"),
   ("kN", "kilonewton"), ("dyn", "dyne"), ("kgf", "kilogram_force"), ("lbf", "pound_force"), ("ozf", "ounce_force"),
   ("pdl", "poundal"), ("gf", "gram_force"), ("Hz", "hertz"), ("kHz", "kilohertz"), ("MHz", "megahertz"),
   ("GHz", "gigahertz"), ("rpm", "revolutions_per_minute"), ("B", "byte"), ("kB", "kilobyte"), ("MB", "megabyte"),
   ("GB", "gigabyte"), ("TB", "terabyte"), ("PB", "petabyte"), ("EB", "exabyte"), ("ZB", "zettabyte"),
   ("YB", "yottabyte"), ("Bd", "baud"), ("KiB", "kibibyte"), ("MiB", "mebibyte"), ("GiB", "gibibyte"),
   ("TiB", "tebibyte"), ("PiB", "pebibyte"), ("EiB", "exbibyte"), ("ZiB", "zebibyte"), ("YiB", "yobibyte"),
   ("m", "meter"), ("km", "kilometer"), ("cm", "centimeter"), ("mm", "millimeter"), ("um", "micrometer"),
   ("nm", "nanometer"), ("pm", "picometer"), ("fm", "femtometer"), ("ft", "foot"), ("mi", "mile"), ("yd", "yard"),
   ("pc", "parsec"), ("ly", "light_year"), ("au", "astronomical_unit"), ("nmi", "nautical_mile"), ("kg", "kilogram"),
   ("g", "gram"), ("mg", "milligram"), ("oz", "ounce"), ("lb", "pound"), ("st", "stone"), ("gr", "grain"),
   ("t", "tonne"), ("dwt", "pennyweight"), ("toz", "troy_ounce"), ("u", "atomic_mass_unit"), ("W", "watt"),
   ("mW", "milliwatt"), ("kW", "kilowatt"), ("MW", "megawatt"), ("hp", "horsepower"), ("Pa", "pascal"),
   ("hPa", "hectopascal"), ("kPa", "kilopascal"), ("MPa", "megapascal"), ("GPa", "gigapascal"), ("mbar", "millibar"),
   ("kbar", "kilobar"), ("atm", "standard_atmosphere"), ("at", "technical_atmosphere"), ("Ba", "barye"),
   ("mmHg", "millimeter_Hg"), ("Bq", "becquerel"), ("Ci", "curie"), ("Gy", "gray"), ("R", "roentgen"),
   ("mol", "mole"), ("mmol", "millimole"), ("umol", "micromole"), ("K", "kelvin"), ("degC", "celsius"),
   ("degF", "fahrenheit"), ("degR", "rankine"), ("s", "second"), ("ms", "millisecond"), ("us", "microsecond"),
   ("ns", "nanosecond"), ("ps", "picosecond"), ("fs", "femtosecond"), ("min", "minute"), ("h", "hour"),
   ("hr", "hour"), ("d", "day"), ("yr", "year"), ("c", "speed_of_light"), ("kt", "knot"), ("P", "poise"),
   ("cP", "centipoise"), ("St", "stokes"), ("L", "liter"), ("mL", "milliliter"), ("kL", "kiloliter"),
   ("cc", "cubic_centimeter"), ("bu", "US_bushel"), ("bbl", "barrel"), ("tbsp", "tablespoon"), ("tsp", "teaspoon"),
   ("ct", "count")]

end PQ
