import Verif.Py
/-!
# What the units of the shipped database mean (generated by tools/mktable.py)

One line per unit of `udunits2_combined.xml`: its spellings, how values are to be read, its factor and the powers of the basis
units.  Computed with exact fractions by an evaluator independent of the model.
-/

namespace Verif.Spec

/-- How `x` of a unit is to be read, `m` being its linear magnitude: `x m`, `(x + q) m`, `10^x m`, `2^x m`, `e^x m`. -/
inductive Scale where
  | linear
  | offset (q : Rat)
  | log10
  | log2
  | ln
  deriving DecidableEq, Repr

/-- A unit of the shipped database: all its spellings, its scale, `factor · Π basis^power`. -/
structure ShippedUnit where
  spellings : List Str
  scale : Scale
  factor : Rat
  powers : List (Str × Int)
  deriving DecidableEq

/-- see `shipped` -/
def shipped0 : List ShippedUnit := [
  ⟨[c!"meter", c!"meters", c!"metre", c!"metres", c!"m"], .linear, 1, [(c!"meter", 1)]⟩,
  ⟨[c!"kilogram", c!"kilograms", c!"kg"], .linear, 1, [(c!"kilogram", 1)]⟩,
  ⟨[c!"second", c!"seconds", c!"s"], .linear, 1, [(c!"second", 1)]⟩,
  ⟨[c!"ampere", c!"amperes", c!"A"], .linear, 1, [(c!"ampere", 1)]⟩,
  ⟨[c!"kelvin", c!"kelvins", c!"K"], .linear, 1, [(c!"kelvin", 1)]⟩,
  ⟨[c!"mole", c!"moles", c!"mol"], .linear, 1, [(c!"mole", 1)]⟩,
  ⟨[c!"candela", c!"candelas", c!"cd"], .linear, 1, [(c!"candela", 1)]⟩,
  ⟨[c!"radian", c!"radians", c!"rad"], .linear, 1, [(c!"radian", 1)]⟩,
  ⟨[c!"steradian", c!"steradians", c!"sr"], .linear, 1, [(c!"radian", 2)]⟩,
  ⟨[c!"hertz", c!"hertzes", c!"Hz"], .linear, 1, [(c!"second", -1)]⟩,
  ⟨[c!"gram", c!"grams", c!"g"], .linear, 1/1000, [(c!"kilogram", 1)]⟩,
  ⟨[c!"newton", c!"newtons", c!"N"], .linear, 1, [(c!"meter", 1), (c!"kilogram", 1), (c!"second", -2)]⟩,
  ⟨[c!"pascal", c!"pascals", c!"Pa"], .linear, 1, [(c!"meter", -1), (c!"kilogram", 1), (c!"second", -2)]⟩,
  ⟨[c!"joule", c!"joules", c!"J"], .linear, 1, [(c!"meter", 2), (c!"kilogram", 1), (c!"second", -2)]⟩,
  ⟨[c!"watt", c!"watts", c!"W"], .linear, 1, [(c!"meter", 2), (c!"kilogram", 1), (c!"second", -3)]⟩,
  ⟨[c!"coulomb", c!"coulombs", c!"C"], .linear, 1, [(c!"second", 1), (c!"ampere", 1)]⟩,
  ⟨[c!"volt", c!"volts", c!"V"], .linear, 1, [(c!"meter", 2), (c!"kilogram", 1), (c!"second", -3), (c!"ampere", -1)]⟩,
  ⟨[c!"farad", c!"farads", c!"F"], .linear, 1, [(c!"second", 4), (c!"ampere", 2), (c!"meter", -2), (c!"kilogram", -1)]⟩,
  ⟨[c!"ohm", c!"ohms", c!"Ω", c!"Ω"], .linear, 1, [(c!"meter", 2), (c!"kilogram", 1), (c!"second", -3), (c!"ampere", -2)]⟩,
  ⟨[c!"siemens", c!"siemenses", c!"S"], .linear, 1, [(c!"ampere", 2), (c!"meter", -2), (c!"kilogram", -1), (c!"second", 3)]⟩,
  ⟨[c!"weber", c!"webers", c!"Wb"], .linear, 1, [(c!"meter", 2), (c!"kilogram", 1), (c!"second", -2), (c!"ampere", -1)]⟩,
  ⟨[c!"tesla", c!"teslas", c!"T"], .linear, 1, [(c!"kilogram", 1), (c!"second", -2), (c!"ampere", -1)]⟩,
  ⟨[c!"henry", c!"henrys", c!"H"], .linear, 1, [(c!"meter", 2), (c!"kilogram", 1), (c!"second", -2), (c!"ampere", -2)]⟩,
  ⟨[c!"degree_Celsius", c!"degrees_Celsius", c!"°C"], .offset (5463/20), 1, [(c!"kelvin", 1)]⟩,
  ⟨[c!"lumen", c!"lumens", c!"lm"], .linear, 1, [(c!"candela", 1), (c!"radian", 2)]⟩,
  ⟨[c!"lux", c!"luxes", c!"lx"], .linear, 1, [(c!"candela", 1), (c!"radian", 2), (c!"meter", -2)]⟩,
  ⟨[c!"katal", c!"katals", c!"kat"], .linear, 1, [(c!"mole", 1), (c!"second", -1)]⟩,
  ⟨[c!"becquerel", c!"becquerels", c!"Bq"], .linear, 1, [(c!"second", -1)]⟩,
  ⟨[c!"gray", c!"grays", c!"Gy"], .linear, 1, [(c!"meter", 2), (c!"second", -2)]⟩,
  ⟨[c!"sievert", c!"sieverts", c!"Sv"], .linear, 1, [(c!"meter", 2), (c!"second", -2)]⟩,
  ⟨[c!"minute", c!"minutes", c!"min"], .linear, 60, [(c!"second", 1)]⟩,
  ⟨[c!"hour", c!"hours", c!"h", c!"hr"], .linear, 3600, [(c!"second", 1)]⟩,
  ⟨[c!"day", c!"days", c!"d"], .linear, 86400, [(c!"second", 1)]⟩,
  ⟨[c!"pi", c!"π"], .linear, 3141592653589793238462643383279/1000000000000000000000000000000, []⟩,
  ⟨[c!"arc_degree", c!"arc_degrees", c!"angular_degree", c!"angular_degrees", c!"degree", c!"degrees", c!"arcdeg", c!"arcdegs", c!"°"], .linear, 1047197551196597746154214461093/60000000000000000000000000000000, [(c!"radian", 1)]⟩,
  ⟨[c!"arc_minute", c!"arc_minutes", c!"angular_minute", c!"angular_minutes", c!"arcminute", c!"arcminutes", c!"arcmin", c!"arcmins", c!"'", c!"′"], .linear, 1047197551196597746154214461093/3600000000000000000000000000000000, [(c!"radian", 1)]⟩,
  ⟨[c!"arc_second", c!"arc_seconds", c!"angular_second", c!"angular_seconds", c!"arcsecond", c!"arcseconds", c!"arcsec", c!"arcsecs", c!"\"", c!"″"], .linear, 1047197551196597746154214461093/216000000000000000000000000000000000, [(c!"radian", 1)]⟩,
  ⟨[c!"liter", c!"liters", c!"litre", c!"litres", c!"L", c!"l"], .linear, 1/1000, [(c!"meter", 3)]⟩,
  ⟨[c!"metric_ton", c!"metric_tons", c!"tonne", c!"tonnes", c!"t"], .linear, 1000, [(c!"kilogram", 1)]⟩,
  ⟨[c!"electronvolt", c!"electronvolts", c!"electron_volt", c!"electron_volts", c!"eV"], .linear, 160217733/1000000000000000000000000000, [(c!"meter", 2), (c!"kilogram", 1), (c!"second", -2)]⟩
]

/-- see `shipped` -/
def shipped1 : List ShippedUnit := [
  ⟨[c!"unified_atomic_mass_unit", c!"unified_atomic_mass_units", c!"atomic_mass_unit", c!"atomic_mass_units", c!"atomicmassunit", c!"atomicmassunits", c!"amu", c!"u"], .linear, 8302701/5000000000000000000000000000000000, [(c!"kilogram", 1)]⟩,
  ⟨[c!"astronomical_unit", c!"astronomical_units", c!"au"], .linear, 149597870700, [(c!"meter", 1)]⟩,
  ⟨[c!"astronomical_unit_BIPM_2006", c!"astronomical_unit_BIPM_2006s", c!"ua"], .linear, 149597900000, [(c!"meter", 1)]⟩,
  ⟨[c!"nautical_mile", c!"nautical_miles"], .linear, 1852, [(c!"meter", 1)]⟩,
  ⟨[c!"international_knot", c!"international_knots", c!"knot_international", c!"knot_internationals", c!"knot", c!"knots"], .linear, 463/900, [(c!"meter", 1), (c!"second", -1)]⟩,
  ⟨[c!"angstrom", c!"angstroms", c!"ångström", c!"ångströms", c!"Å", c!"Å"], .linear, 1/10000000000, [(c!"meter", 1)]⟩,
  ⟨[c!"are", c!"ares", c!"a"], .linear, 100, [(c!"meter", 2)]⟩,
  ⟨[c!"hectare", c!"hectares"], .linear, 10000, [(c!"meter", 2)]⟩,
  ⟨[c!"barn", c!"barns", c!"b"], .linear, 1/10000000000000000000000000000, [(c!"meter", 2)]⟩,
  ⟨[c!"bar", c!"bars"], .linear, 100000, [(c!"meter", -1), (c!"kilogram", 1), (c!"second", -2)]⟩,
  ⟨[c!"gal", c!"gals"], .linear, 1/100, [(c!"meter", 1), (c!"second", -2)]⟩,
  ⟨[c!"curie", c!"curies", c!"Ci"], .linear, 37000000000, [(c!"second", -1)]⟩,
  ⟨[c!"roentgen", c!"roentgens", c!"R"], .linear, 129/500000, [(c!"second", 1), (c!"ampere", 1), (c!"kilogram", -1)]⟩,
  ⟨[c!"rem", c!"rems"], .linear, 1/100, [(c!"meter", 2), (c!"second", -2)]⟩,
  ⟨[c!"sec", c!"secs"], .linear, 1, [(c!"second", 1)]⟩,
  ⟨[c!"amp", c!"amps"], .linear, 1, [(c!"ampere", 1)]⟩,
  ⟨[c!"degree_kelvin", c!"degrees_kelvin", c!"degree_K", c!"degrees_K", c!"degreeK", c!"degreesK", c!"deg_K", c!"degs_K", c!"degK", c!"degsK", c!"°K"], .linear, 1, [(c!"kelvin", 1)]⟩,
  ⟨[c!"candle", c!"candles"], .linear, 1, [(c!"candela", 1)]⟩,
  ⟨[c!"einstein", c!"einsteins"], .linear, 1, [(c!"mole", 1)]⟩,
  ⟨[c!"baud", c!"bauds", c!"Bd", c!"bps"], .linear, 1, [(c!"second", -1)]⟩,
  ⟨[c!"celsius", c!"celsiuses", c!"degree_C", c!"degrees_C", c!"degreeC", c!"degreesC", c!"deg_C", c!"degs_C", c!"degC", c!"degsC", c!"℃"], .offset (5463/20), 1, [(c!"kelvin", 1)]⟩,
  ⟨[c!"kt", c!"kts"], .linear, 463/900, [(c!"meter", 1), (c!"second", -1)]⟩,
  ⟨[c!"avogadro_constant", c!"avogadro_constants"], .linear, 602214179000000000000000, [(c!"mole", -1)]⟩,
  ⟨[c!"percent", c!"percents", c!"%"], .linear, 1/100, []⟩,
  ⟨[c!"ppv"], .linear, 1, []⟩,
  ⟨[c!"ppm", c!"ppmv"], .linear, 1/1000000, []⟩,
  ⟨[c!"ppb", c!"ppbv"], .linear, 1/1000000000, []⟩,
  ⟨[c!"ppt", c!"pptv"], .linear, 1/1000000000000, []⟩,
  ⟨[c!"ppq", c!"ppqv"], .linear, 1/1000000000000000, []⟩,
  ⟨[c!"grade", c!"grades"], .linear, 3141592653589793238462643383279/200000000000000000000000000000000, [(c!"radian", 1)]⟩,
  ⟨[c!"circle", c!"circles", c!"cycle", c!"cycles", c!"turn", c!"turns", c!"revolution", c!"revolutions", c!"rotation", c!"rotations"], .linear, 3141592653589793238462643383279/500000000000000000000000000000, [(c!"radian", 1)]⟩,
  ⟨[c!"degree_north", c!"degrees_north", c!"degree_N", c!"degrees_N", c!"degreeN", c!"degreesN", c!"degree_east", c!"degrees_east", c!"degree_E", c!"degrees_E", c!"degreeE", c!"degreesE", c!"degree_true", c!"degrees_true", c!"degree_T", c!"degrees_T", c!"degreeT", c!"degreesT"], .linear, 1047197551196597746154214461093/60000000000000000000000000000000, [(c!"radian", 1)]⟩,
  ⟨[c!"degree_west", c!"degrees_west", c!"degree_W", c!"degrees_W", c!"degreeW", c!"degreesW"], .linear, -1047197551196597746154214461093/60000000000000000000000000000000, [(c!"radian", 1)]⟩,
  ⟨[c!"assay_ton", c!"assay_tons"], .linear, 2916667/100000000, [(c!"kilogram", 1)]⟩,
  ⟨[c!"avoirdupois_ounce", c!"avoirdupois_ounces"], .linear, 354369/12500000, [(c!"kilogram", 1)]⟩,
  ⟨[c!"avoirdupois_pound", c!"avoirdupois_pounds", c!"pound", c!"pounds", c!"lb"], .linear, 45359237/100000000, [(c!"kilogram", 1)]⟩,
  ⟨[c!"carat", c!"carats"], .linear, 1/5000, [(c!"kilogram", 1)]⟩,
  ⟨[c!"grain", c!"grains", c!"gr"], .linear, 6479891/100000000000, [(c!"kilogram", 1)]⟩,
  ⟨[c!"long_hundredweight", c!"long_hundredweights"], .linear, 1016047/20000, [(c!"kilogram", 1)]⟩,
  ⟨[c!"pennyweight", c!"pennyweights"], .linear, 777587/500000000, [(c!"kilogram", 1)]⟩
]

/-- see `shipped` -/
def shipped2 : List ShippedUnit := [
  ⟨[c!"short_hundredweight", c!"short_hundredweights"], .linear, 1133981/25000, [(c!"kilogram", 1)]⟩,
  ⟨[c!"slug", c!"slugs"], .linear, 145939/10000, [(c!"kilogram", 1)]⟩,
  ⟨[c!"troy_ounce", c!"troy_ounces", c!"apothecary_ounce", c!"apothecary_ounces"], .linear, 777587/25000000, [(c!"kilogram", 1)]⟩,
  ⟨[c!"troy_pound", c!"troy_pounds", c!"apothecary_pound", c!"apothecary_pounds"], .linear, 3732417/10000000, [(c!"kilogram", 1)]⟩,
  ⟨[c!"scruple", c!"scruples"], .linear, 6479891/5000000000, [(c!"kilogram", 1)]⟩,
  ⟨[c!"apdram", c!"apdrams"], .linear, 19439673/5000000000, [(c!"kilogram", 1)]⟩,
  ⟨[c!"dram", c!"drams", c!"dr"], .linear, 354369/200000000, [(c!"kilogram", 1)]⟩,
  ⟨[c!"apounce", c!"apounces"], .linear, 19439673/625000000, [(c!"kilogram", 1)]⟩,
  ⟨[c!"appound", c!"appounds"], .linear, 58319019/156250000, [(c!"kilogram", 1)]⟩,
  ⟨[c!"bag", c!"bags"], .linear, 2131884139/50000000, [(c!"kilogram", 1)]⟩,
  ⟨[c!"short_ton", c!"short_tons", c!"ton", c!"tons"], .linear, 45359237/50000, [(c!"kilogram", 1)]⟩,
  ⟨[c!"long_ton", c!"long_tons"], .linear, 317514659/312500, [(c!"kilogram", 1)]⟩,
  ⟨[c!"fermi", c!"fermis"], .linear, 1/1000000000000000, [(c!"meter", 1)]⟩,
  ⟨[c!"light_year", c!"light_years"], .linear, 9460730000000000, [(c!"meter", 1)]⟩,
  ⟨[c!"micron", c!"microns"], .linear, 1/1000000, [(c!"meter", 1)]⟩,
  ⟨[c!"mil", c!"mils"], .linear, 127/5000000, [(c!"meter", 1)]⟩,
  ⟨[c!"parsec", c!"parsecs"], .linear, 30856780000000000, [(c!"meter", 1)]⟩,
  ⟨[c!"printers_point", c!"printers_points"], .linear, 1757299/5000000000, [(c!"meter", 1)]⟩,
  ⟨[c!"chain", c!"chains"], .linear, 502921/25000, [(c!"meter", 1)]⟩,
  ⟨[c!"printers_pica", c!"printers_picas", c!"pica", c!"picas"], .linear, 5271897/1250000000, [(c!"meter", 1)]⟩,
  ⟨[c!"nmile", c!"nmiles"], .linear, 1852, [(c!"meter", 1)]⟩,
  ⟨[c!"US_survey_foot", c!"US_survey_feet"], .linear, 1200/3937, [(c!"meter", 1)]⟩,
  ⟨[c!"US_survey_yard", c!"US_survey_yards"], .linear, 3600/3937, [(c!"meter", 1)]⟩,
  ⟨[c!"US_survey_mile", c!"US_survey_miles", c!"US_statute_mile", c!"US_statute_miles"], .linear, 6336000/3937, [(c!"meter", 1)]⟩,
  ⟨[c!"rod", c!"rods", c!"pole", c!"poles", c!"perch", c!"perches"], .linear, 19800/3937, [(c!"meter", 1)]⟩,
  ⟨[c!"furlong", c!"furlongs"], .linear, 792000/3937, [(c!"meter", 1)]⟩,
  ⟨[c!"fathom", c!"fathoms"], .linear, 7200/3937, [(c!"meter", 1)]⟩,
  ⟨[c!"international_inch", c!"international_inches", c!"inch", c!"inches", c!"in"], .linear, 127/5000, [(c!"meter", 1)]⟩,
  ⟨[c!"international_foot", c!"international_feet", c!"foot", c!"feet", c!"ft"], .linear, 381/1250, [(c!"meter", 1)]⟩,
  ⟨[c!"international_yard", c!"international_yards", c!"yard", c!"yards", c!"yd"], .linear, 1143/1250, [(c!"meter", 1)]⟩,
  ⟨[c!"international_mile", c!"international_miles", c!"mile", c!"miles", c!"mi"], .linear, 201168/125, [(c!"meter", 1)]⟩,
  ⟨[c!"big_point", c!"big_points"], .linear, 127/360000, [(c!"meter", 1)]⟩,
  ⟨[c!"barleycorn", c!"barleycorns"], .linear, 127/15000, [(c!"meter", 1)]⟩,
  ⟨[c!"arpentlin", c!"arpentlins"], .linear, 14617827/250000, [(c!"meter", 1)]⟩,
  ⟨[c!"rotation_per_second", c!"rotations_per_second", c!"rps", c!"cps"], .linear, 3141592653589793238462643383279/500000000000000000000000000000, [(c!"radian", 1), (c!"second", -1)]⟩,
  ⟨[c!"rpm"], .linear, 1047197551196597746154214461093/10000000000000000000000000000000, [(c!"radian", 1), (c!"second", -1)]⟩,
  ⟨[c!"denier", c!"deniers"], .linear, 1111111/10000000000000, [(c!"kilogram", 1), (c!"meter", -1)]⟩,
  ⟨[c!"tex", c!"texes"], .linear, 1/1000000, [(c!"kilogram", 1), (c!"meter", -1)]⟩,
  ⟨[c!"perm_0C", c!"perms_0C"], .linear, 114427/2000000000000000, [(c!"meter", -1), (c!"second", 1)]⟩,
  ⟨[c!"perm_23C", c!"perms_23C"], .linear, 22981/400000000000000, [(c!"meter", -1), (c!"second", 1)]⟩
]

/-- see `shipped` -/
def shipped3 : List ShippedUnit := [
  ⟨[c!"circular_mil", c!"circular_mils"], .linear, 202683/400000000000000, [(c!"meter", 2)]⟩,
  ⟨[c!"darcy", c!"darcys"], .linear, 9869233/10000000000000000000, [(c!"meter", 2)]⟩,
  ⟨[c!"acre", c!"acres"], .linear, 62726400000/15499969, [(c!"meter", 2)]⟩,
  ⟨[c!"acre_foot", c!"acre_feet"], .linear, 1233489/1000, [(c!"meter", 3)]⟩,
  ⟨[c!"board_foot", c!"board_feet"], .linear, 2359737/1000000000, [(c!"meter", 3)]⟩,
  ⟨[c!"bushel", c!"bushels", c!"bu"], .linear, 3523907/100000000, [(c!"meter", 3)]⟩,
  ⟨[c!"peck", c!"pecks", c!"pk"], .linear, 3523907/400000000, [(c!"meter", 3)]⟩,
  ⟨[c!"Canadian_liquid_gallon", c!"Canadian_liquid_gallons"], .linear, 454609/100000000, [(c!"meter", 3)]⟩,
  ⟨[c!"US_dry_gallon", c!"US_dry_gallons"], .linear, 1101221/250000000, [(c!"meter", 3)]⟩,
  ⟨[c!"cc"], .linear, 1/1000000, [(c!"meter", 3)]⟩,
  ⟨[c!"stere", c!"steres"], .linear, 1, [(c!"meter", 3)]⟩,
  ⟨[c!"register_ton", c!"register_tons"], .linear, 566337/200000, [(c!"meter", 3)]⟩,
  ⟨[c!"US_dry_quart", c!"US_dry_quarts", c!"dry_quart", c!"dry_quarts"], .linear, 1101221/1000000000, [(c!"meter", 3)]⟩,
  ⟨[c!"US_dry_pint", c!"US_dry_pints", c!"dry_pint", c!"dry_pints"], .linear, 1101221/2000000000, [(c!"meter", 3)]⟩,
  ⟨[c!"US_liquid_gallon", c!"US_liquid_gallons", c!"liquid_gallon", c!"liquid_gallons", c!"gallon", c!"gallons"], .linear, 946353/250000000, [(c!"meter", 3)]⟩,
  ⟨[c!"barrel", c!"barrels", c!"bbl"], .linear, 19873413/125000000, [(c!"meter", 3)]⟩,
  ⟨[c!"firkin", c!"firkins"], .linear, 19873413/500000000, [(c!"meter", 3)]⟩,
  ⟨[c!"US_liquid_quart", c!"US_liquid_quarts", c!"liquid_quart", c!"liquid_quarts", c!"quart", c!"quarts"], .linear, 946353/1000000000, [(c!"meter", 3)]⟩,
  ⟨[c!"US_liquid_pint", c!"US_liquid_pints", c!"liquid_pint", c!"liquid_pints", c!"pint", c!"pints", c!"pt"], .linear, 946353/2000000000, [(c!"meter", 3)]⟩,
  ⟨[c!"US_liquid_cup", c!"US_liquid_cups", c!"liquid_cup", c!"liquid_cups", c!"cup", c!"cups"], .linear, 946353/4000000000, [(c!"meter", 3)]⟩,
  ⟨[c!"US_liquid_gill", c!"US_liquid_gills", c!"liquid_gill", c!"liquid_gills", c!"gill", c!"gills"], .linear, 946353/8000000000, [(c!"meter", 3)]⟩,
  ⟨[c!"US_fluid_ounce", c!"US_fluid_ounces", c!"US_liquid_ounce", c!"US_liquid_ounces", c!"fluid_ounce", c!"fluid_ounces", c!"liquid_ounce", c!"liquid_ounces", c!"oz", c!"floz"], .linear, 946353/32000000000, [(c!"meter", 3)]⟩,
  ⟨[c!"tablespoon", c!"tablespoons", c!"Tbl", c!"Tbsp", c!"tbsp", c!"Tblsp", c!"tblsp"], .linear, 946353/64000000000, [(c!"meter", 3)]⟩,
  ⟨[c!"fluid_dram", c!"fluid_drams", c!"fldr"], .linear, 946353/256000000000, [(c!"meter", 3)]⟩,
  ⟨[c!"teaspoon", c!"teaspoons", c!"tsp"], .linear, 315451/64000000000, [(c!"meter", 3)]⟩,
  ⟨[c!"UK_liquid_gallon", c!"UK_liquid_gallons"], .linear, 454609/100000000, [(c!"meter", 3)]⟩,
  ⟨[c!"UK_liquid_quart", c!"UK_liquid_quarts"], .linear, 454609/400000000, [(c!"meter", 3)]⟩,
  ⟨[c!"UK_liquid_pint", c!"UK_liquid_pints"], .linear, 454609/800000000, [(c!"meter", 3)]⟩,
  ⟨[c!"UK_liquid_cup", c!"UK_liquid_cups"], .linear, 454609/1600000000, [(c!"meter", 3)]⟩,
  ⟨[c!"UK_liquid_gill", c!"UK_liquid_gills"], .linear, 454609/3200000000, [(c!"meter", 3)]⟩,
  ⟨[c!"UK_fluid_ounce", c!"UK_fluid_ounces", c!"UK_liquid_ounce", c!"UK_liquid_ounces"], .linear, 454609/16000000000, [(c!"meter", 3)]⟩,
  ⟨[c!"BZ"], .log10, 1/1000000000000000000, [(c!"meter", 3)]⟩,
  ⟨[c!"shake", c!"shakes"], .linear, 1/100000000, [(c!"second", 1)]⟩,
  ⟨[c!"sidereal_day", c!"sidereal_days"], .linear, 8616409/100, [(c!"second", 1)]⟩,
  ⟨[c!"sidereal_hour", c!"sidereal_hours"], .linear, 359017/100, [(c!"second", 1)]⟩,
  ⟨[c!"sidereal_minute", c!"sidereal_minutes"], .linear, 5983617/100000, [(c!"second", 1)]⟩,
  ⟨[c!"sidereal_second", c!"sidereal_seconds"], .linear, 1246587/1250000, [(c!"second", 1)]⟩,
  ⟨[c!"sidereal_year", c!"sidereal_years"], .linear, 31558150, [(c!"second", 1)]⟩,
  ⟨[c!"tropical_year", c!"tropical_years", c!"year", c!"years", c!"yr"], .linear, 315569259747/10000, [(c!"second", 1)]⟩,
  ⟨[c!"lunar_month", c!"lunar_months"], .linear, 1594651806/625, [(c!"second", 1)]⟩
]

/-- see `shipped` -/
def shipped4 : List ShippedUnit := [
  ⟨[c!"common_year", c!"common_years"], .linear, 31536000, [(c!"second", 1)]⟩,
  ⟨[c!"leap_year", c!"leap_years"], .linear, 31622400, [(c!"second", 1)]⟩,
  ⟨[c!"Julian_year", c!"Julian_years"], .linear, 31557600, [(c!"second", 1)]⟩,
  ⟨[c!"Gregorian_year", c!"Gregorian_years"], .linear, 31556952, [(c!"second", 1)]⟩,
  ⟨[c!"sidereal_month", c!"sidereal_months"], .linear, 1475369694/625, [(c!"second", 1)]⟩,
  ⟨[c!"tropical_month", c!"tropical_months"], .linear, 1475365428/625, [(c!"second", 1)]⟩,
  ⟨[c!"fortnight", c!"fortnights"], .linear, 1209600, [(c!"second", 1)]⟩,
  ⟨[c!"week", c!"weeks"], .linear, 604800, [(c!"second", 1)]⟩,
  ⟨[c!"jiffy", c!"jiffys"], .linear, 1/100, [(c!"second", 1)]⟩,
  ⟨[c!"eon", c!"eons"], .linear, 31556925974700000, [(c!"second", 1)]⟩,
  ⟨[c!"month", c!"months"], .linear, 105189753249/40000, [(c!"second", 1)]⟩,
  ⟨[c!"sverdrup", c!"sverdrups"], .linear, 1000000, [(c!"meter", 3), (c!"second", -1)]⟩,
  ⟨[c!"standard_free_fall", c!"standard_free_falls"], .linear, 196133/20000, [(c!"meter", 1), (c!"second", -2)]⟩,
  ⟨[c!"gravity", c!"gravitys"], .linear, 196133/20000, [(c!"meter", 1), (c!"second", -2)]⟩,
  ⟨[c!"conventional_water", c!"conventional_waters", c!"water", c!"waters", c!"H2O", c!"h2o"], .linear, 196133/20, [(c!"meter", -2), (c!"second", -2), (c!"kilogram", 1)]⟩,
  ⟨[c!"water_4C", c!"waters_4C", c!"water_39F", c!"waters_39F"], .linear, 49031877069/5000000, [(c!"meter", -2), (c!"second", -2), (c!"kilogram", 1)]⟩,
  ⟨[c!"water_60F", c!"waters_60F"], .linear, 195937063133/20000000, [(c!"meter", -2), (c!"second", -2), (c!"kilogram", 1)]⟩,
  ⟨[c!"mercury_0C", c!"mercuries_0C", c!"mercury_32F", c!"mercuries_32F", c!"conventional_mercury", c!"conventional_mercuries", c!"Hg"], .linear, 26664477483/200000, [(c!"meter", -2), (c!"second", -2), (c!"kilogram", 1)]⟩,
  ⟨[c!"mercury_60F", c!"mercuries_60F"], .linear, 1661834909/12500, [(c!"meter", -2), (c!"second", -2), (c!"kilogram", 1)]⟩,
  ⟨[c!"force", c!"forces"], .linear, 196133/20000, [(c!"meter", 1), (c!"second", -2)]⟩,
  ⟨[c!"dyne", c!"dynes"], .linear, 1/100000, [(c!"meter", 1), (c!"kilogram", 1), (c!"second", -2)]⟩,
  ⟨[c!"pond", c!"ponds"], .linear, 196133/20000000, [(c!"meter", 1), (c!"kilogram", 1), (c!"second", -2)]⟩,
  ⟨[c!"force_kilogram", c!"force_kilograms", c!"kilogram_force", c!"kilograms_force", c!"kgf"], .linear, 196133/20000, [(c!"meter", 1), (c!"kilogram", 1), (c!"second", -2)]⟩,
  ⟨[c!"force_ounce", c!"force_ounces", c!"ounce_force", c!"ounces_force", c!"ozf"], .linear, 2780139/10000000, [(c!"meter", 1), (c!"kilogram", 1), (c!"second", -2)]⟩,
  ⟨[c!"force_pound", c!"force_pounds", c!"pound_force", c!"pounds_force", c!"lbf"], .linear, 8896443230521/2000000000000, [(c!"meter", 1), (c!"kilogram", 1), (c!"second", -2)]⟩,
  ⟨[c!"poundal", c!"poundals"], .linear, 27651/200000, [(c!"meter", 1), (c!"kilogram", 1), (c!"second", -2)]⟩,
  ⟨[c!"gram_force", c!"grams_force", c!"force_gram", c!"force_grams", c!"gf"], .linear, 196133/20000000, [(c!"kilogram", 1), (c!"meter", 1), (c!"second", -2)]⟩,
  ⟨[c!"force_ton", c!"force_tons", c!"ton_force", c!"tons_force"], .linear, 8896443230521/1000000000, [(c!"meter", 1), (c!"kilogram", 1), (c!"second", -2)]⟩,
  ⟨[c!"kip", c!"kips"], .linear, 8896443230521/2000000000, [(c!"meter", 1), (c!"kilogram", 1), (c!"second", -2)]⟩,
  ⟨[c!"standard_atmosphere", c!"standard_atmospheres", c!"atmosphere", c!"atmospheres", c!"atm"], .linear, 101325, [(c!"meter", -1), (c!"kilogram", 1), (c!"second", -2)]⟩,
  ⟨[c!"technical_atmosphere", c!"technical_atmospheres", c!"at"], .linear, 196133/2, [(c!"kilogram", 1), (c!"meter", -1), (c!"second", -2)]⟩,
  ⟨[c!"foot_water", c!"feet_water", c!"foot_H2O", c!"feet_H2O", c!"footH2O", c!"feetH2O", c!"ftH2O", c!"fth2o"], .linear, 74726673/25000, [(c!"meter", -1), (c!"second", -2), (c!"kilogram", 1)]⟩,
  ⟨[c!"cm_Hg", c!"cmHg"], .linear, 26664477483/20000000, [(c!"meter", -1), (c!"second", -2), (c!"kilogram", 1)]⟩,
  ⟨[c!"millimeter_Hg", c!"millimeters_Hg", c!"torr", c!"torrs", c!"mm_Hg", c!"mm_hg", c!"mmHg", c!"mmhg"], .linear, 26664477483/200000000, [(c!"meter", -1), (c!"second", -2), (c!"kilogram", 1)]⟩,
  ⟨[c!"inch_Hg", c!"inches_Hg", c!"in_Hg", c!"inHg"], .linear, 3386388640341/1000000000, [(c!"meter", -1), (c!"second", -2), (c!"kilogram", 1)]⟩,
  ⟨[c!"psi"], .linear, 8896443230521/1290320000, [(c!"kilogram", 1), (c!"meter", -1), (c!"second", -2)]⟩,
  ⟨[c!"ksi"], .linear, 8896443230521/1290320, [(c!"meter", -1), (c!"kilogram", 1), (c!"second", -2)]⟩,
  ⟨[c!"barie", c!"baries", c!"barye", c!"baryes"], .linear, 1/10, [(c!"meter", -1), (c!"kilogram", 1), (c!"second", -2)]⟩,
  ⟨[c!"B_SPL"], .log10, 1/50000, [(c!"meter", -1), (c!"kilogram", 1), (c!"second", -2)]⟩,
  ⟨[c!"poise", c!"poises"], .linear, 1/10, [(c!"meter", -1), (c!"kilogram", 1), (c!"second", -1)]⟩
]

/-- see `shipped` -/
def shipped5 : List ShippedUnit := [
  ⟨[c!"stokes", c!"stokeses", c!"St"], .linear, 1/10000, [(c!"meter", 2), (c!"second", -1)]⟩,
  ⟨[c!"rhe", c!"rhes"], .linear, 10, [(c!"meter", 1), (c!"kilogram", -1), (c!"second", 1)]⟩,
  ⟨[c!"erg", c!"ergs"], .linear, 1/10000000, [(c!"meter", 2), (c!"kilogram", 1), (c!"second", -2)]⟩,
  ⟨[c!"IT_Btu", c!"IT_Btus", c!"Btu", c!"Btus"], .linear, 52752792631/50000000, [(c!"meter", 2), (c!"kilogram", 1), (c!"second", -2)]⟩,
  ⟨[c!"EC_therm", c!"EC_therms"], .linear, 105506000, [(c!"meter", 2), (c!"kilogram", 1), (c!"second", -2)]⟩,
  ⟨[c!"thermochemical_calorie", c!"thermochemical_calories"], .linear, 523/125, [(c!"meter", 2), (c!"kilogram", 1), (c!"second", -2)]⟩,
  ⟨[c!"IT_calorie", c!"IT_calories", c!"calorie", c!"calories", c!"cal"], .linear, 10467/2500, [(c!"meter", 2), (c!"kilogram", 1), (c!"second", -2)]⟩,
  ⟨[c!"TNT"], .linear, 4184000, [(c!"meter", 2), (c!"second", -2)]⟩,
  ⟨[c!"ton_TNT", c!"tons_TNT"], .linear, 4184000000, [(c!"meter", 2), (c!"kilogram", 1), (c!"second", -2)]⟩,
  ⟨[c!"US_therm", c!"US_therms", c!"therm", c!"therms", c!"thm"], .linear, 105480400, [(c!"meter", 2), (c!"kilogram", 1), (c!"second", -2)]⟩,
  ⟨[c!"watthour", c!"watthours"], .linear, 3600, [(c!"meter", 2), (c!"kilogram", 1), (c!"second", -2)]⟩,
  ⟨[c!"bev"], .linear, 160217733/1000000000000000000, [(c!"meter", 2), (c!"kilogram", 1), (c!"second", -2)]⟩,
  ⟨[c!"voltampere", c!"voltamperes", c!"VA"], .linear, 1, [(c!"meter", 2), (c!"kilogram", 1), (c!"second", -3)]⟩,
  ⟨[c!"boiler_horsepower", c!"boiler_horsepowers"], .linear, 19619/2, [(c!"meter", 2), (c!"kilogram", 1), (c!"second", -3)]⟩,
  ⟨[c!"shaft_horsepower", c!"shaft_horsepowers", c!"horsepower", c!"horsepowers", c!"hp"], .linear, 7456999/10000, [(c!"meter", 2), (c!"kilogram", 1), (c!"second", -3)]⟩,
  ⟨[c!"metric_horsepower", c!"metric_horsepowers"], .linear, 735499/1000, [(c!"meter", 2), (c!"kilogram", 1), (c!"second", -3)]⟩,
  ⟨[c!"electric_horsepower", c!"electric_horsepowers"], .linear, 746, [(c!"meter", 2), (c!"kilogram", 1), (c!"second", -3)]⟩,
  ⟨[c!"water_horsepower", c!"water_horsepowers"], .linear, 746043/1000, [(c!"meter", 2), (c!"kilogram", 1), (c!"second", -3)]⟩,
  ⟨[c!"UK_horsepower", c!"UK_horsepowers"], .linear, 7457/10, [(c!"meter", 2), (c!"kilogram", 1), (c!"second", -3)]⟩,
  ⟨[c!"refrigeration_ton", c!"refrigeration_tons", c!"ton_of_refrigeration", c!"tons_of_refrigeration"], .linear, 52752792631/15000000, [(c!"meter", 2), (c!"kilogram", 1), (c!"second", -3)]⟩,
  ⟨[c!"BW"], .log10, 1, [(c!"meter", 2), (c!"kilogram", 1), (c!"second", -3)]⟩,
  ⟨[c!"Bm"], .log10, 1/1000, [(c!"meter", 2), (c!"kilogram", 1), (c!"second", -3)]⟩,
  ⟨[c!"clo", c!"clos"], .linear, 31/200, [(c!"kelvin", 1), (c!"kilogram", -1), (c!"second", 3)]⟩,
  ⟨[c!"abampere", c!"abamperes"], .linear, 10, [(c!"ampere", 1)]⟩,
  ⟨[c!"gilbert", c!"gilberts"], .linear, 7957747/10000000, [(c!"ampere", 1)]⟩,
  ⟨[c!"statampere", c!"statamperes"], .linear, 83391/250000000000000, [(c!"ampere", 1)]⟩,
  ⟨[c!"biot", c!"biots"], .linear, 10, [(c!"ampere", 1)]⟩,
  ⟨[c!"abfarad", c!"abfarads"], .linear, 1000000000, [(c!"second", 4), (c!"ampere", 2), (c!"meter", -2), (c!"kilogram", -1)]⟩,
  ⟨[c!"abhenry", c!"abhenrys"], .linear, 1/1000000000, [(c!"meter", 2), (c!"kilogram", 1), (c!"second", -2), (c!"ampere", -2)]⟩,
  ⟨[c!"abmho", c!"abmhos"], .linear, 1000000000, [(c!"ampere", 2), (c!"meter", -2), (c!"kilogram", -1), (c!"second", 3)]⟩,
  ⟨[c!"abohm", c!"abohms"], .linear, 1/1000000000, [(c!"meter", 2), (c!"kilogram", 1), (c!"second", -3), (c!"ampere", -2)]⟩,
  ⟨[c!"abvolt", c!"abvolts"], .linear, 1/100000000, [(c!"meter", 2), (c!"kilogram", 1), (c!"second", -3), (c!"ampere", -1)]⟩,
  ⟨[c!"e"], .linear, 1602176487/10000000000000000000000000000, [(c!"second", 1), (c!"ampere", 1)]⟩,
  ⟨[c!"chemical_faraday", c!"chemical_faradays"], .linear, 964957/10, [(c!"second", 1), (c!"ampere", 1)]⟩,
  ⟨[c!"physical_faraday", c!"physical_faradays"], .linear, 965219/10, [(c!"second", 1), (c!"ampere", 1)]⟩,
  ⟨[c!"C12_faraday", c!"C12_faradays", c!"faraday", c!"faradays"], .linear, 9648531/100, [(c!"second", 1), (c!"ampere", 1)]⟩,
  ⟨[c!"gamma", c!"gammas"], .linear, 1/1000000000, [(c!"kilogram", 1), (c!"second", -2), (c!"ampere", -1)]⟩,
  ⟨[c!"gauss", c!"gausses"], .linear, 1/10000, [(c!"kilogram", 1), (c!"second", -2), (c!"ampere", -1)]⟩,
  ⟨[c!"maxwell", c!"maxwells"], .linear, 1/100000000, [(c!"meter", 2), (c!"kilogram", 1), (c!"second", -2), (c!"ampere", -1)]⟩,
  ⟨[c!"oersted", c!"oersteds", c!"Oe"], .linear, 7957747/100000, [(c!"ampere", 1), (c!"meter", -1)]⟩
]

/-- see `shipped` -/
def shipped6 : List ShippedUnit := [
  ⟨[c!"statcoulomb", c!"statcoulombs"], .linear, 83391/250000000000000, [(c!"second", 1), (c!"ampere", 1)]⟩,
  ⟨[c!"statfarad", c!"statfarads"], .linear, 22253/20000000000000000, [(c!"second", 4), (c!"ampere", 2), (c!"meter", -2), (c!"kilogram", -1)]⟩,
  ⟨[c!"stathenry", c!"stathenrys"], .linear, 898755400000, [(c!"meter", 2), (c!"kilogram", 1), (c!"second", -2), (c!"ampere", -2)]⟩,
  ⟨[c!"statmho", c!"statmhos"], .linear, 22253/20000000000000000, [(c!"ampere", 2), (c!"meter", -2), (c!"kilogram", -1), (c!"second", 3)]⟩,
  ⟨[c!"statohm", c!"statohms"], .linear, 898755400000, [(c!"meter", 2), (c!"kilogram", 1), (c!"second", -3), (c!"ampere", -2)]⟩,
  ⟨[c!"statvolt", c!"statvolts"], .linear, 119917/400, [(c!"meter", 2), (c!"kilogram", 1), (c!"second", -3), (c!"ampere", -1)]⟩,
  ⟨[c!"unit_pole", c!"unit_poles"], .linear, 1256637/10000000000000, [(c!"meter", 2), (c!"kilogram", 1), (c!"second", -2), (c!"ampere", -1)]⟩,
  ⟨[c!"BV"], .log10, 1, [(c!"meter", 2), (c!"kilogram", 1), (c!"second", -3), (c!"ampere", -1)]⟩,
  ⟨[c!"Bv"], .log10, 31/40, [(c!"meter", 2), (c!"kilogram", 1), (c!"second", -3), (c!"ampere", -1)]⟩,
  ⟨[c!"BµV"], .log10, 1/1000000, [(c!"meter", 2), (c!"kilogram", 1), (c!"second", -3), (c!"ampere", -1)]⟩,
  ⟨[c!"degree_rankine", c!"degrees_rankine", c!"degreeR", c!"degreesR", c!"degree_R", c!"degrees_R", c!"degR", c!"degsR", c!"deg_R", c!"degs_R", c!"°R"], .linear, 5/9, [(c!"kelvin", 1)]⟩,
  ⟨[c!"fahrenheit", c!"fahrenheits", c!"degree_fahrenheit", c!"degrees_fahrenheit", c!"degreeF", c!"degreesF", c!"degree_F", c!"degrees_F", c!"degF", c!"degsF", c!"deg_F", c!"degs_F", c!"°F", c!"℉"], .offset (45967/100), 5/9, [(c!"kelvin", 1)]⟩,
  ⟨[c!"footcandle", c!"footcandles"], .linear, 1076391/10000000, [(c!"candela", 1), (c!"radian", 2), (c!"meter", -2)]⟩,
  ⟨[c!"footlambert", c!"footlamberts"], .linear, 3426259/1000000, [(c!"candela", 1), (c!"meter", -2)]⟩,
  ⟨[c!"lambert", c!"lamberts"], .linear, 10000000000000000000000000000000000/3141592653589793238462643383279, [(c!"candela", 1), (c!"meter", -2)]⟩,
  ⟨[c!"stilb", c!"stilbs", c!"sb"], .linear, 10000, [(c!"candela", 1), (c!"meter", -2)]⟩,
  ⟨[c!"phot", c!"phots", c!"ph"], .linear, 10000, [(c!"candela", 1), (c!"radian", 2), (c!"meter", -2)]⟩,
  ⟨[c!"nit", c!"nits", c!"nt"], .linear, 1, [(c!"candela", 1), (c!"meter", -2)]⟩,
  ⟨[c!"langley", c!"langleys"], .linear, 41840, [(c!"kilogram", 1), (c!"second", -2)]⟩,
  ⟨[c!"blondel", c!"blondels", c!"apostilb", c!"apostilbs"], .linear, 1000000000000000000000000000000/3141592653589793238462643383279, [(c!"candela", 1), (c!"meter", -2)]⟩,
  ⟨[c!"kayser", c!"kaysers"], .linear, 100, [(c!"meter", -1)]⟩,
  ⟨[c!"geopotential", c!"geopotentials", c!"dynamic", c!"dynamics", c!"gp"], .linear, 196133/20000, [(c!"meter", 1), (c!"second", -2)]⟩,
  ⟨[c!"work_year", c!"work_years"], .linear, 7401600, [(c!"second", 1)]⟩,
  ⟨[c!"work_month", c!"work_months"], .linear, 616800, [(c!"second", 1)]⟩,
  ⟨[c!"potential_vorticity_unit", c!"potential_vorticity_units", c!"PVU"], .linear, 1/1000000, [(c!"meter", 2), (c!"second", -1), (c!"kelvin", 1), (c!"kilogram", -1)]⟩,
  ⟨[c!"count", c!"counts"], .linear, 1, []⟩,
  ⟨[c!"bit", c!"bits"], .linear, 1, []⟩,
  ⟨[c!"octet", c!"octets", c!"byte", c!"bytes"], .linear, 8, []⟩,
  ⟨[c!"dobson", c!"dobsons", c!"DU"], .linear, 2231/5000000, [(c!"mole", 1), (c!"meter", -2)]⟩,
  ⟨[c!"molecule", c!"molecules", c!"molec", c!"molecs", c!"nucleon", c!"nucleons", c!"nuc", c!"nucs"], .linear, 1/602214179000000000000000, [(c!"mole", 1)]⟩
]

/-- every usable unit of `udunits2_combined.xml` -/
def shipped : List ShippedUnit := shipped0 ++ shipped1 ++ shipped2 ++ shipped3 ++ shipped4 ++ shipped5 ++ shipped6

end Verif.Spec
