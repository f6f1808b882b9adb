import Verif.Model.Xml
/-!
# What the shipped database declares (generated by tools/mkdb.py)

The declarations of `udunits2_combined.xml` as values.  That these are what the model of the reader gets out of the
transcribed document is proved in `Props/Database.lean`.
-/

namespace Verif.Db

/-- declarations of units 0–39 of `udunits2_combined.xml` -/
def decls0 : List UnitDecl := [
  .basis ⟨c!"meter", false, false, ⟨some ⟨c!"meter", some c!"meters"⟩, [c!"m"], [⟨c!"metre", some c!"metres"⟩], []⟩⟩,
  .basis ⟨c!"kilogram", false, false, ⟨some ⟨c!"kilogram", some c!"kilograms"⟩, [c!"kg"], [], []⟩⟩,
  .basis ⟨c!"second", false, true, ⟨some ⟨c!"second", some c!"seconds"⟩, [c!"s"], [], []⟩⟩,
  .basis ⟨c!"ampere", false, false, ⟨some ⟨c!"ampere", some c!"amperes"⟩, [c!"A"], [], []⟩⟩,
  .basis ⟨c!"kelvin", false, false, ⟨some ⟨c!"kelvin", some c!"kelvins"⟩, [c!"K"], [], []⟩⟩,
  .basis ⟨c!"mole", false, false, ⟨some ⟨c!"mole", some c!"moles"⟩, [c!"mol"], [], []⟩⟩,
  .basis ⟨c!"candela", false, false, ⟨some ⟨c!"candela", some c!"candelas"⟩, [c!"cd"], [], []⟩⟩,
  .basis ⟨c!"radian", true, false, ⟨some ⟨c!"radian", some c!"radians"⟩, [c!"rad"], [], []⟩⟩,
  .lazy c!"rad^2" ⟨some ⟨c!"steradian", some c!"steradians"⟩, [c!"sr"], [], []⟩,
  .lazy c!"1/s" ⟨some ⟨c!"hertz", some c!"hertzes"⟩, [c!"Hz"], [], []⟩,
  .lazy c!"1e-3 kg" ⟨some ⟨c!"gram", some c!"grams"⟩, [c!"g"], [], []⟩,
  .lazy c!"m.kg/s^2" ⟨some ⟨c!"newton", some c!"newtons"⟩, [c!"N"], [], []⟩,
  .lazy c!"N/m^2" ⟨some ⟨c!"pascal", some c!"pascals"⟩, [c!"Pa"], [], []⟩,
  .lazy c!"N.m" ⟨some ⟨c!"joule", some c!"joules"⟩, [c!"J"], [], []⟩,
  .lazy c!"J/s" ⟨some ⟨c!"watt", some c!"watts"⟩, [c!"W"], [], []⟩,
  .lazy c!"s.A" ⟨some ⟨c!"coulomb", some c!"coulombs"⟩, [c!"C"], [], []⟩,
  .lazy c!"W/A" ⟨some ⟨c!"volt", some c!"volts"⟩, [c!"V"], [], []⟩,
  .lazy c!"C/V" ⟨some ⟨c!"farad", some c!"farads"⟩, [c!"F"], [], []⟩,
  .lazy c!"V/A" ⟨some ⟨c!"ohm", some c!"ohms"⟩, [c!"Ω"], [], [c!"Ω"]⟩,
  .lazy c!"A/V" ⟨some ⟨c!"siemens", some c!"siemenses"⟩, [c!"S"], [], []⟩,
  .lazy c!"V.s" ⟨some ⟨c!"weber", some c!"webers"⟩, [c!"Wb"], [], []⟩,
  .lazy c!"Wb/m^2" ⟨some ⟨c!"tesla", some c!"teslas"⟩, [c!"T"], [], []⟩,
  .lazy c!"Wb/A" ⟨some ⟨c!"henry", some c!"henrys"⟩, [c!"H"], [], []⟩,
  .lazy c!"K @ 273.15" ⟨some ⟨c!"degree_Celsius", some c!"degrees_Celsius"⟩, [c!"°C"], [], []⟩,
  .lazy c!"cd.sr" ⟨some ⟨c!"lumen", some c!"lumens"⟩, [c!"lm"], [], []⟩,
  .lazy c!"lm/m^2" ⟨some ⟨c!"lux", some c!"luxes"⟩, [c!"lx"], [], []⟩,
  .lazy c!"mol/s" ⟨some ⟨c!"katal", some c!"katals"⟩, [c!"kat"], [], []⟩,
  .lazy c!"1/s" ⟨none, [], [⟨c!"becquerel", some c!"becquerels"⟩], [c!"Bq"]⟩,
  .lazy c!"J/kg" ⟨some ⟨c!"gray", some c!"grays"⟩, [c!"Gy"], [], []⟩,
  .lazy c!"J/kg" ⟨none, [], [⟨c!"sievert", some c!"sieverts"⟩], [c!"Sv"]⟩,
  .lazy c!"60 s" ⟨some ⟨c!"minute", some c!"minutes"⟩, [c!"min"], [], []⟩,
  .lazy c!"60 min" ⟨some ⟨c!"hour", some c!"hours"⟩, [c!"h"], [], [c!"hr"]⟩,
  .lazy c!"24 h" ⟨some ⟨c!"day", some c!"days"⟩, [c!"d"], [], []⟩,
  .lazy c!"3.141592653589793238462643383279" ⟨none, [], [⟨c!"pi", none⟩], [c!"π"]⟩,
  .lazy c!"(pi/180) rad" ⟨some ⟨c!"arc_degree", some c!"arc_degrees"⟩, [c!"°"], [⟨c!"angular_degree", some c!"angular_degrees"⟩, ⟨c!"degree", some c!"degrees"⟩, ⟨c!"arcdeg", some c!"arcdegs"⟩], []⟩,
  .lazy c!"°/60" ⟨some ⟨c!"arc_minute", some c!"arc_minutes"⟩, [c!"'", c!"′"], [⟨c!"angular_minute", some c!"angular_minutes"⟩, ⟨c!"arcminute", some c!"arcminutes"⟩, ⟨c!"arcmin", some c!"arcmins"⟩], []⟩,
  .lazy c!"'/60" ⟨some ⟨c!"arc_second", some c!"arc_seconds"⟩, [c!"\"", c!"″"], [⟨c!"angular_second", some c!"angular_seconds"⟩, ⟨c!"arcsecond", some c!"arcseconds"⟩, ⟨c!"arcsec", some c!"arcsecs"⟩], []⟩,
  .lazy c!"dm^3" ⟨some ⟨c!"liter", some c!"liters"⟩, [c!"L"], [⟨c!"litre", some c!"litres"⟩], [c!"l"]⟩,
  .lazy c!"1000 kg" ⟨some ⟨c!"metric_ton", some c!"metric_tons"⟩, [c!"t"], [⟨c!"tonne", some c!"tonnes"⟩], []⟩,
  .lazy c!"1.60217733e-19 J" ⟨some ⟨c!"electronvolt", some c!"electronvolts"⟩, [c!"eV"], [⟨c!"electron_volt", some c!"electron_volts"⟩], []⟩
]

/-- declarations of units 40–79 of `udunits2_combined.xml` -/
def decls1 : List UnitDecl := [
  .lazy c!"1.6605402e-27 kg" ⟨some ⟨c!"unified_atomic_mass_unit", some c!"unified_atomic_mass_units"⟩, [c!"u"], [⟨c!"atomic_mass_unit", some c!"atomic_mass_units"⟩, ⟨c!"atomicmassunit", some c!"atomicmassunits"⟩, ⟨c!"amu", none⟩], []⟩,
  .lazy c!"1.49597870700e11 m" ⟨none, [], [⟨c!"astronomical_unit", some c!"astronomical_units"⟩], [c!"au"]⟩,
  .lazy c!"1.495979e11 m" ⟨none, [], [⟨c!"astronomical_unit_BIPM_2006", some c!"astronomical_unit_BIPM_2006s"⟩], [c!"ua"]⟩,
  .lazy c!"1852 m" ⟨none, [], [⟨c!"nautical_mile", some c!"nautical_miles"⟩], []⟩,
  .lazy c!"nautical_mile/hour" ⟨none, [], [⟨c!"international_knot", some c!"international_knots"⟩, ⟨c!"knot_international", some c!"knot_internationals"⟩, ⟨c!"knot", some c!"knots"⟩], []⟩,
  .lazy c!"1e-10 m" ⟨none, [], [⟨c!"angstrom", some c!"angstroms"⟩, ⟨c!"ångström", some c!"ångströms"⟩], [c!"Å", c!"Å"]⟩,
  .lazy c!"dam^2" ⟨none, [], [⟨c!"are", some c!"ares"⟩], [c!"a"]⟩,
  .lazy c!"100 are" ⟨none, [], [⟨c!"hectare", some c!"hectares"⟩], []⟩,
  .lazy c!"100 fm^2" ⟨none, [], [⟨c!"barn", some c!"barns"⟩], [c!"b"]⟩,
  .lazy c!"1000 hPa" ⟨none, [], [⟨c!"bar", some c!"bars"⟩], []⟩,
  .lazy c!"cm/s^2" ⟨none, [], [⟨c!"gal", some c!"gals"⟩], []⟩,
  .lazy c!"3.7e10 Bq" ⟨none, [], [⟨c!"curie", some c!"curies"⟩], [c!"Ci"]⟩,
  .lazy c!"2.58e-4 C/kg" ⟨none, [], [⟨c!"roentgen", some c!"roentgens"⟩], [c!"R"]⟩,
  .lazy c!"cSv" ⟨none, [], [⟨c!"rem", some c!"rems"⟩], []⟩,
  .lazy c!"s" ⟨none, [], [⟨c!"sec", some c!"secs"⟩], []⟩,
  .lazy c!"A" ⟨none, [], [⟨c!"amp", some c!"amps"⟩], []⟩,
  .lazy c!"K" ⟨none, [], [⟨c!"degree_kelvin", some c!"degrees_kelvin"⟩, ⟨c!"degree_K", some c!"degrees_K"⟩, ⟨c!"degreeK", some c!"degreesK"⟩, ⟨c!"deg_K", some c!"degs_K"⟩, ⟨c!"degK", some c!"degsK"⟩], [c!"°K"]⟩,
  .lazy c!"cd" ⟨none, [], [⟨c!"candle", some c!"candles"⟩], []⟩,
  .lazy c!"mole" ⟨none, [], [⟨c!"einstein", some c!"einsteins"⟩], []⟩,
  .lazy c!"Hz" ⟨none, [], [⟨c!"baud", some c!"bauds"⟩], [c!"Bd", c!"bps"]⟩,
  .lazy c!"degree_Celsius" ⟨none, [], [⟨c!"celsius", some c!"celsiuses"⟩, ⟨c!"degree_C", some c!"degrees_C"⟩, ⟨c!"degreeC", some c!"degreesC"⟩, ⟨c!"deg_C", some c!"degs_C"⟩, ⟨c!"degC", some c!"degsC"⟩], [c!"℃"]⟩,
  .lazy c!"knot" ⟨none, [], [], [c!"kt", c!"kts"]⟩,
  .lazy c!"6.02214179e23/mol" ⟨none, [], [⟨c!"avogadro_constant", some c!"avogadro_constants"⟩], []⟩,
  .lazy c!"0.01" ⟨none, [], [⟨c!"percent", some c!"percents"⟩], [c!"%"]⟩,
  .lazy c!"1" ⟨none, [], [], [c!"ppv"]⟩,
  .lazy c!"1e-6" ⟨none, [], [], [c!"ppm", c!"ppmv"]⟩,
  .lazy c!"1e-9" ⟨none, [], [], [c!"ppb", c!"ppbv"]⟩,
  .lazy c!"1e-12" ⟨none, [], [], [c!"ppt", c!"pptv"]⟩,
  .lazy c!"1e-15" ⟨none, [], [], [c!"ppq", c!"ppqv"]⟩,
  .lazy c!"0.9 arc_degree" ⟨none, [], [⟨c!"grade", some c!"grades"⟩], []⟩,
  .lazy c!"2 pi rad" ⟨none, [], [⟨c!"circle", some c!"circles"⟩, ⟨c!"cycle", some c!"cycles"⟩, ⟨c!"turn", some c!"turns"⟩, ⟨c!"revolution", some c!"revolutions"⟩, ⟨c!"rotation", some c!"rotations"⟩], []⟩,
  .lazy c!"arc_degree" ⟨none, [], [⟨c!"degree_north", some c!"degrees_north"⟩, ⟨c!"degree_N", some c!"degrees_N"⟩, ⟨c!"degreeN", some c!"degreesN"⟩, ⟨c!"degree_east", some c!"degrees_east"⟩, ⟨c!"degree_E", some c!"degrees_E"⟩, ⟨c!"degreeE", some c!"degreesE"⟩, ⟨c!"degree_true", some c!"degrees_true"⟩, ⟨c!"degree_T", some c!"degrees_T"⟩, ⟨c!"degreeT", some c!"degreesT"⟩], []⟩,
  .lazy c!"-1 degree_east" ⟨none, [], [⟨c!"degree_west", some c!"degrees_west"⟩, ⟨c!"degree_W", some c!"degrees_W"⟩, ⟨c!"degreeW", some c!"degreesW"⟩], []⟩,
  .lazy c!"2.916667e-2 kg" ⟨none, [], [⟨c!"assay_ton", some c!"assay_tons"⟩], []⟩,
  .lazy c!"2.834952e-2 kg" ⟨none, [], [⟨c!"avoirdupois_ounce", some c!"avoirdupois_ounces"⟩], []⟩,
  .lazy c!"4.5359237e-1 kg" ⟨none, [], [⟨c!"avoirdupois_pound", some c!"avoirdupois_pounds"⟩, ⟨c!"pound", some c!"pounds"⟩], [c!"lb"]⟩,
  .lazy c!"2e-4 kg" ⟨none, [], [⟨c!"carat", some c!"carats"⟩], []⟩,
  .lazy c!"6.479891e-5 kg" ⟨none, [], [⟨c!"grain", some c!"grains"⟩], [c!"gr"]⟩,
  .lazy c!"5.080235e1 kg" ⟨none, [], [⟨c!"long_hundredweight", some c!"long_hundredweights"⟩], []⟩,
  .lazy c!"1.555174e-3 kg" ⟨none, [], [⟨c!"pennyweight", some c!"pennyweights"⟩], []⟩
]

/-- declarations of units 80–119 of `udunits2_combined.xml` -/
def decls2 : List UnitDecl := [
  .lazy c!"4.535924e1 kg" ⟨none, [], [⟨c!"short_hundredweight", some c!"short_hundredweights"⟩], []⟩,
  .lazy c!"14.59390 kg" ⟨none, [], [⟨c!"slug", some c!"slugs"⟩], []⟩,
  .lazy c!"3.110348e-2 kg" ⟨none, [], [⟨c!"troy_ounce", some c!"troy_ounces"⟩, ⟨c!"apothecary_ounce", some c!"apothecary_ounces"⟩], []⟩,
  .lazy c!"3.732417e-1 kg" ⟨none, [], [⟨c!"troy_pound", some c!"troy_pounds"⟩, ⟨c!"apothecary_pound", some c!"apothecary_pounds"⟩], []⟩,
  .lazy c!"20 grain" ⟨none, [], [⟨c!"scruple", some c!"scruples"⟩], []⟩,
  .lazy c!"60 grain" ⟨none, [], [⟨c!"apdram", some c!"apdrams"⟩], []⟩,
  .lazy c!"avoirdupois_ounce/16" ⟨none, [], [⟨c!"dram", some c!"drams"⟩], [c!"dr"]⟩,
  .lazy c!"480 grain" ⟨none, [], [⟨c!"apounce", some c!"apounces"⟩], []⟩,
  .lazy c!"5760 grain" ⟨none, [], [⟨c!"appound", some c!"appounds"⟩], []⟩,
  .lazy c!"94 pound" ⟨none, [], [⟨c!"bag", some c!"bags"⟩], []⟩,
  .lazy c!"2000 pound" ⟨none, [], [⟨c!"short_ton", some c!"short_tons"⟩, ⟨c!"ton", some c!"tons"⟩], []⟩,
  .lazy c!"2240 pound" ⟨none, [], [⟨c!"long_ton", some c!"long_tons"⟩], []⟩,
  .lazy c!"1e-15 m" ⟨none, [], [⟨c!"fermi", some c!"fermis"⟩], []⟩,
  .lazy c!"9.46073e15 m" ⟨none, [], [⟨c!"light_year", some c!"light_years"⟩], []⟩,
  .lazy c!"1e-6 m" ⟨none, [], [⟨c!"micron", some c!"microns"⟩], []⟩,
  .lazy c!"2.54e-5 m" ⟨none, [], [⟨c!"mil", some c!"mils"⟩], []⟩,
  .lazy c!"3.085678e16 m" ⟨none, [], [⟨c!"parsec", some c!"parsecs"⟩], []⟩,
  .lazy c!"3.514598e-4 m" ⟨none, [], [⟨c!"printers_point", some c!"printers_points"⟩], []⟩,
  .lazy c!"2.011684e1 m" ⟨none, [], [⟨c!"chain", some c!"chains"⟩], []⟩,
  .lazy c!"12 printers_point" ⟨none, [], [⟨c!"printers_pica", some c!"printers_picas"⟩, ⟨c!"pica", some c!"picas"⟩], []⟩,
  .lazy c!"nautical_mile" ⟨none, [], [⟨c!"nmile", some c!"nmiles"⟩], []⟩,
  .lazy c!"(1200/3937) m" ⟨none, [], [⟨c!"US_survey_foot", some c!"US_survey_feet"⟩], []⟩,
  .lazy c!"3 US_survey_feet" ⟨none, [], [⟨c!"US_survey_yard", some c!"US_survey_yards"⟩], []⟩,
  .lazy c!"5280 US_survey_feet" ⟨none, [], [⟨c!"US_survey_mile", some c!"US_survey_miles"⟩, ⟨c!"US_statute_mile", some c!"US_statute_miles"⟩], []⟩,
  .lazy c!"16.5 US_survey_feet" ⟨none, [], [⟨c!"rod", some c!"rods"⟩, ⟨c!"pole", some c!"poles"⟩, ⟨c!"perch", some c!"perches"⟩], []⟩,
  .lazy c!"660 US_survey_feet" ⟨none, [], [⟨c!"furlong", some c!"furlongs"⟩], []⟩,
  .lazy c!"6 US_survey_feet" ⟨none, [], [⟨c!"fathom", some c!"fathoms"⟩], []⟩,
  .lazy c!"2.54 cm" ⟨none, [], [⟨c!"international_inch", some c!"international_inches"⟩, ⟨c!"inch", some c!"inches"⟩], [c!"in"]⟩,
  .lazy c!"12 international_inches" ⟨none, [], [⟨c!"international_foot", some c!"international_feet"⟩, ⟨c!"foot", some c!"feet"⟩], [c!"ft"]⟩,
  .lazy c!"3 international_feet" ⟨none, [], [⟨c!"international_yard", some c!"international_yards"⟩, ⟨c!"yard", some c!"yards"⟩], [c!"yd"]⟩,
  .lazy c!"5280 international_feet" ⟨none, [], [⟨c!"international_mile", some c!"international_miles"⟩, ⟨c!"mile", some c!"miles"⟩], [c!"mi"]⟩,
  .lazy c!"inch/72" ⟨none, [], [⟨c!"big_point", some c!"big_points"⟩], []⟩,
  .lazy c!"inch/3" ⟨none, [], [⟨c!"barleycorn", some c!"barleycorns"⟩], []⟩,
  .lazy c!"191.835 foot" ⟨none, [], [⟨c!"arpentlin", some c!"arpentlins"⟩], []⟩,
  .lazy c!"rotation/second" ⟨none, [], [⟨c!"rotation_per_second", some c!"rotations_per_second"⟩], [c!"rps", c!"cps"]⟩,
  .lazy c!"rotation/minute" ⟨none, [], [], [c!"rpm"]⟩,
  .lazy c!"1.111111e-7 kg/m" ⟨none, [], [⟨c!"denier", some c!"deniers"⟩], []⟩,
  .lazy c!"1e-6 kg/m" ⟨none, [], [⟨c!"tex", some c!"texes"⟩], []⟩,
  .lazy c!"5.72135e-11 kg/(Pa.s.m^2)" ⟨none, [], [⟨c!"perm_0C", some c!"perms_0C"⟩], []⟩,
  .lazy c!"5.74525e-11 kg/(Pa.s.m^2)" ⟨none, [], [⟨c!"perm_23C", some c!"perms_23C"⟩], []⟩
]

/-- declarations of units 120–159 of `udunits2_combined.xml` -/
def decls3 : List UnitDecl := [
  .lazy c!"5.067075e-10 m^2" ⟨none, [], [⟨c!"circular_mil", some c!"circular_mils"⟩], []⟩,
  .lazy c!"9.869233e-13 m^2" ⟨none, [], [⟨c!"darcy", some c!"darcys"⟩], []⟩,
  .lazy c!"160 rod^2" ⟨none, [], [⟨c!"acre", some c!"acres"⟩], []⟩,
  .lazy c!"1.233489e3 m^3" ⟨none, [], [⟨c!"acre_foot", some c!"acre_feet"⟩], []⟩,
  .lazy c!"2.359737e-3 m^3" ⟨none, [], [⟨c!"board_foot", some c!"board_feet"⟩], []⟩,
  .lazy c!"3.523907e-2 m^3" ⟨none, [], [⟨c!"bushel", some c!"bushels"⟩], [c!"bu"]⟩,
  .lazy c!"bushel/4" ⟨none, [], [⟨c!"peck", some c!"pecks"⟩], [c!"pk"]⟩,
  .lazy c!"4.546090e-3 m^3" ⟨none, [], [⟨c!"Canadian_liquid_gallon", some c!"Canadian_liquid_gallons"⟩], []⟩,
  .lazy c!"4.404884e-3 m^3" ⟨none, [], [⟨c!"US_dry_gallon", some c!"US_dry_gallons"⟩], []⟩,
  .lazy c!"cm^3" ⟨none, [], [], [c!"cc"]⟩,
  .lazy c!"1 m^3" ⟨none, [], [⟨c!"stere", some c!"steres"⟩], []⟩,
  .lazy c!"2.831685 m^3" ⟨none, [], [⟨c!"register_ton", some c!"register_tons"⟩], []⟩,
  .lazy c!"US_dry_gallon/4" ⟨none, [], [⟨c!"US_dry_quart", some c!"US_dry_quarts"⟩, ⟨c!"dry_quart", some c!"dry_quarts"⟩], []⟩,
  .lazy c!"US_dry_gallon/8" ⟨none, [], [⟨c!"US_dry_pint", some c!"US_dry_pints"⟩, ⟨c!"dry_pint", some c!"dry_pints"⟩], []⟩,
  .lazy c!"3.785412e-3 m^3" ⟨none, [], [⟨c!"US_liquid_gallon", some c!"US_liquid_gallons"⟩, ⟨c!"liquid_gallon", some c!"liquid_gallons"⟩, ⟨c!"gallon", some c!"gallons"⟩], []⟩,
  .lazy c!"42 US_liquid_gallon" ⟨none, [], [⟨c!"barrel", some c!"barrels"⟩], [c!"bbl"]⟩,
  .lazy c!"barrel/4" ⟨none, [], [⟨c!"firkin", some c!"firkins"⟩], []⟩,
  .lazy c!"US_liquid_gallon/4" ⟨none, [], [⟨c!"US_liquid_quart", some c!"US_liquid_quarts"⟩, ⟨c!"liquid_quart", some c!"liquid_quarts"⟩, ⟨c!"quart", some c!"quarts"⟩], []⟩,
  .lazy c!"US_liquid_gallon/8" ⟨none, [], [⟨c!"US_liquid_pint", some c!"US_liquid_pints"⟩, ⟨c!"liquid_pint", some c!"liquid_pints"⟩, ⟨c!"pint", some c!"pints"⟩], [c!"pt"]⟩,
  .lazy c!"US_liquid_gallon/16" ⟨none, [], [⟨c!"US_liquid_cup", some c!"US_liquid_cups"⟩, ⟨c!"liquid_cup", some c!"liquid_cups"⟩, ⟨c!"cup", some c!"cups"⟩], []⟩,
  .lazy c!"US_liquid_gallon/32" ⟨none, [], [⟨c!"US_liquid_gill", some c!"US_liquid_gills"⟩, ⟨c!"liquid_gill", some c!"liquid_gills"⟩, ⟨c!"gill", some c!"gills"⟩], []⟩,
  .lazy c!"US_liquid_gallon/128" ⟨none, [], [⟨c!"US_fluid_ounce", some c!"US_fluid_ounces"⟩, ⟨c!"US_liquid_ounce", some c!"US_liquid_ounces"⟩, ⟨c!"fluid_ounce", some c!"fluid_ounces"⟩, ⟨c!"liquid_ounce", some c!"liquid_ounces"⟩], [c!"oz", c!"floz"]⟩,
  .lazy c!"US_fluid_ounce/2" ⟨none, [], [⟨c!"tablespoon", some c!"tablespoons"⟩], [c!"Tbl", c!"Tbsp", c!"tbsp", c!"Tblsp", c!"tblsp"]⟩,
  .lazy c!"US_fluid_ounce/8" ⟨none, [], [⟨c!"fluid_dram", some c!"fluid_drams"⟩], [c!"fldr"]⟩,
  .lazy c!"tablespoon/3" ⟨none, [], [⟨c!"teaspoon", some c!"teaspoons"⟩], [c!"tsp"]⟩,
  .lazy c!"4.546090e-3 m^3" ⟨none, [], [⟨c!"UK_liquid_gallon", some c!"UK_liquid_gallons"⟩], []⟩,
  .lazy c!"UK_liquid_gallon/4" ⟨none, [], [⟨c!"UK_liquid_quart", some c!"UK_liquid_quarts"⟩], []⟩,
  .lazy c!"UK_liquid_gallon/8" ⟨none, [], [⟨c!"UK_liquid_pint", some c!"UK_liquid_pints"⟩], []⟩,
  .lazy c!"UK_liquid_gallon/16" ⟨none, [], [⟨c!"UK_liquid_cup", some c!"UK_liquid_cups"⟩], []⟩,
  .lazy c!"UK_liquid_gallon/32" ⟨none, [], [⟨c!"UK_liquid_gill", some c!"UK_liquid_gills"⟩], []⟩,
  .lazy c!"UK_liquid_gallon/160" ⟨none, [], [⟨c!"UK_fluid_ounce", some c!"UK_fluid_ounces"⟩, ⟨c!"UK_liquid_ounce", some c!"UK_liquid_ounces"⟩], []⟩,
  .lazy c!"lg(re (1e-6 m)^3)" ⟨none, [], [], [c!"BZ"]⟩,
  .lazy c!"1e-8 s" ⟨none, [], [⟨c!"shake", some c!"shakes"⟩], []⟩,
  .lazy c!"8.616409e4 s" ⟨none, [], [⟨c!"sidereal_day", some c!"sidereal_days"⟩], []⟩,
  .lazy c!"3.590170e3 s" ⟨none, [], [⟨c!"sidereal_hour", some c!"sidereal_hours"⟩], []⟩,
  .lazy c!"5.983617e1 s" ⟨none, [], [⟨c!"sidereal_minute", some c!"sidereal_minutes"⟩], []⟩,
  .lazy c!"0.9972696 s" ⟨none, [], [⟨c!"sidereal_second", some c!"sidereal_seconds"⟩], []⟩,
  .lazy c!"3.155815e7 s" ⟨none, [], [⟨c!"sidereal_year", some c!"sidereal_years"⟩], []⟩,
  .lazy c!"3.15569259747e7 s" ⟨none, [], [⟨c!"tropical_year", some c!"tropical_years"⟩, ⟨c!"year", some c!"years"⟩], [c!"yr"]⟩,
  .lazy c!"29.530589 day" ⟨none, [], [⟨c!"lunar_month", some c!"lunar_months"⟩], []⟩
]

/-- declarations of units 160–199 of `udunits2_combined.xml` -/
def decls4 : List UnitDecl := [
  .lazy c!"365 day" ⟨none, [], [⟨c!"common_year", some c!"common_years"⟩], []⟩,
  .lazy c!"366 day" ⟨none, [], [⟨c!"leap_year", some c!"leap_years"⟩], []⟩,
  .lazy c!"365.25 day" ⟨none, [], [⟨c!"Julian_year", some c!"Julian_years"⟩], []⟩,
  .lazy c!"365.2425 day" ⟨none, [], [⟨c!"Gregorian_year", some c!"Gregorian_years"⟩], []⟩,
  .lazy c!"27.321661 day" ⟨none, [], [⟨c!"sidereal_month", some c!"sidereal_months"⟩], []⟩,
  .lazy c!"27.321582 day" ⟨none, [], [⟨c!"tropical_month", some c!"tropical_months"⟩], []⟩,
  .lazy c!"14 day" ⟨none, [], [⟨c!"fortnight", some c!"fortnights"⟩], []⟩,
  .lazy c!"7 day" ⟨none, [], [⟨c!"week", some c!"weeks"⟩], []⟩,
  .lazy c!"0.01 s" ⟨none, [], [⟨c!"jiffy", some c!"jiffys"⟩], []⟩,
  .lazy c!"1e9 year" ⟨none, [], [⟨c!"eon", some c!"eons"⟩], []⟩,
  .lazy c!"year/12" ⟨none, [], [⟨c!"month", some c!"months"⟩], []⟩,
  .lazy c!"1e6 m^3/s" ⟨none, [], [⟨c!"sverdrup", some c!"sverdrups"⟩], []⟩,
  .lazy c!"9.806650 m/s^2" ⟨none, [], [⟨c!"standard_free_fall", some c!"standard_free_falls"⟩], []⟩,
  .lazy c!"standard_free_fall" ⟨none, [], [⟨c!"gravity", some c!"gravitys"⟩], []⟩,
  .lazy c!"gravity 1000 kg/m^3" ⟨none, [], [⟨c!"conventional_water", some c!"conventional_waters"⟩, ⟨c!"water", some c!"waters"⟩], [c!"H2O", c!"h2o"]⟩,
  .lazy c!"gravity 999.972 kg/m^3" ⟨none, [], [⟨c!"water_4C", some c!"waters_4C"⟩, ⟨c!"water_39F", some c!"waters_39F"⟩], []⟩,
  .lazy c!"gravity 999.001 kg/m^3" ⟨none, [], [⟨c!"water_60F", some c!"waters_60F"⟩], []⟩,
  .lazy c!"gravity 13595.10 kg/m^3" ⟨none, [], [⟨c!"mercury_0C", some c!"mercuries_0C"⟩, ⟨c!"mercury_32F", some c!"mercuries_32F"⟩, ⟨c!"conventional_mercury", some c!"conventional_mercuries"⟩], [c!"Hg"]⟩,
  .lazy c!"gravity 13556.8 kg/m^3" ⟨none, [], [⟨c!"mercury_60F", some c!"mercuries_60F"⟩], []⟩,
  .lazy c!"standard_free_fall" ⟨none, [], [⟨c!"force", some c!"forces"⟩], []⟩,
  .lazy c!"1e-5 N" ⟨none, [], [⟨c!"dyne", some c!"dynes"⟩], []⟩,
  .lazy c!"9.806650e-3 N" ⟨none, [], [⟨c!"pond", some c!"ponds"⟩], []⟩,
  .lazy c!"9.806650 N" ⟨none, [], [⟨c!"force_kilogram", some c!"force_kilograms"⟩, ⟨c!"kilogram_force", some c!"kilograms_force"⟩], [c!"kgf"]⟩,
  .lazy c!"2.780139e-1 N" ⟨none, [], [⟨c!"force_ounce", some c!"force_ounces"⟩, ⟨c!"ounce_force", some c!"ounces_force"⟩], [c!"ozf"]⟩,
  .lazy c!"4.4482216152605 N" ⟨none, [], [⟨c!"force_pound", some c!"force_pounds"⟩, ⟨c!"pound_force", some c!"pounds_force"⟩], [c!"lbf"]⟩,
  .lazy c!"1.382550e-1 N" ⟨none, [], [⟨c!"poundal", some c!"poundals"⟩], []⟩,
  .lazy c!"gram force" ⟨none, [], [⟨c!"gram_force", some c!"grams_force"⟩, ⟨c!"force_gram", some c!"force_grams"⟩], [c!"gf"]⟩,
  .lazy c!"2000 force_pound" ⟨none, [], [⟨c!"force_ton", some c!"force_tons"⟩, ⟨c!"ton_force", some c!"tons_force"⟩], []⟩,
  .lazy c!"1000 lbf" ⟨none, [], [⟨c!"kip", some c!"kips"⟩], []⟩,
  .lazy c!"1.01325e5 Pa" ⟨none, [], [⟨c!"standard_atmosphere", some c!"standard_atmospheres"⟩, ⟨c!"atmosphere", some c!"atmospheres"⟩], [c!"atm"]⟩,
  .lazy c!"1 kg gravity/cm2" ⟨none, [], [⟨c!"technical_atmosphere", some c!"technical_atmospheres"⟩], [c!"at"]⟩,
  .lazy c!"cm H2O" ⟨none, [], [], [c!"cm_H2O", c!"cmH2O"]⟩,
  .lazy c!"inch water_39F" ⟨none, [], [⟨c!"inch_H2O_39F", some c!"inches_H2O_39F"⟩], []⟩,
  .lazy c!"inch water_60F" ⟨none, [], [⟨c!"inch_H2O_60F", some c!"inches_H2O_60F"⟩], []⟩,
  .lazy c!"foot water" ⟨none, [], [⟨c!"foot_water", some c!"feet_water"⟩, ⟨c!"foot_H2O", some c!"feet_H2O"⟩, ⟨c!"footH2O", some c!"feetH2O"⟩], [c!"ftH2O", c!"fth2o"]⟩,
  .lazy c!"cm Hg" ⟨none, [], [], [c!"cm_Hg", c!"cmHg"]⟩,
  .lazy c!"mm mercury_0C" ⟨none, [], [⟨c!"millimeter_Hg_0C", some c!"millimeters_Hg_0C"⟩], []⟩,
  .lazy c!"inch mercury_32F" ⟨none, [], [⟨c!"inch_Hg_32F", some c!"inches_Hg_32F"⟩], []⟩,
  .lazy c!"inch mercury_60F" ⟨none, [], [⟨c!"inch_Hg_60F", some c!"inches_Hg_60F"⟩], []⟩,
  .lazy c!"mm Hg" ⟨none, [], [⟨c!"millimeter_Hg", some c!"millimeters_Hg"⟩, ⟨c!"torr", some c!"torrs"⟩], [c!"mm_Hg", c!"mm_hg", c!"mmHg", c!"mmhg"]⟩
]

/-- declarations of units 200–239 of `udunits2_combined.xml` -/
def decls5 : List UnitDecl := [
  .lazy c!"inch Hg" ⟨none, [], [⟨c!"inch_Hg", some c!"inches_Hg"⟩], [c!"in_Hg", c!"inHg"]⟩,
  .lazy c!"1 pound gravity/in^2" ⟨none, [], [], [c!"psi"]⟩,
  .lazy c!"kip/in^2" ⟨none, [], [], [c!"ksi"]⟩,
  .lazy c!"0.1 N/m^2" ⟨none, [], [⟨c!"barie", some c!"baries"⟩, ⟨c!"barye", some c!"baryes"⟩], []⟩,
  .lazy c!"lg(re 20e-6 Pa)" ⟨none, [], [], [c!"B_SPL"]⟩,
  .lazy c!"1e-1 Pa.s" ⟨none, [], [⟨c!"poise", some c!"poises"⟩], []⟩,
  .lazy c!"1e-4 m^2/s" ⟨none, [], [⟨c!"stokes", some c!"stokeses"⟩], [c!"St"]⟩,
  .lazy c!"10/(Pa.s)" ⟨none, [], [⟨c!"rhe", some c!"rhes"⟩], []⟩,
  .lazy c!"1e-7 J" ⟨none, [], [⟨c!"erg", some c!"ergs"⟩], []⟩,
  .lazy c!"1.05505585262e3 J" ⟨none, [], [⟨c!"IT_Btu", some c!"IT_Btus"⟩, ⟨c!"Btu", some c!"Btus"⟩], []⟩,
  .lazy c!"1.05506e8 J" ⟨none, [], [⟨c!"EC_therm", some c!"EC_therms"⟩], []⟩,
  .lazy c!"4.184000 J" ⟨none, [], [⟨c!"thermochemical_calorie", some c!"thermochemical_calories"⟩], []⟩,
  .lazy c!"4.1868 J" ⟨none, [], [⟨c!"IT_calorie", some c!"IT_calories"⟩, ⟨c!"calorie", some c!"calories"⟩], [c!"cal"]⟩,
  .lazy c!"4.184 MJ/kg" ⟨none, [], [⟨c!"TNT", none⟩], []⟩,
  .lazy c!"4.184e9 J" ⟨none, [], [⟨c!"ton_TNT", some c!"tons_TNT"⟩], []⟩,
  .lazy c!"1.054804e8 J" ⟨none, [], [⟨c!"US_therm", some c!"US_therms"⟩, ⟨c!"therm", some c!"therms"⟩], [c!"thm"]⟩,
  .lazy c!"watt.hour" ⟨none, [], [⟨c!"watthour", some c!"watthours"⟩], []⟩,
  .lazy c!"1e9 eV" ⟨none, [], [], [c!"bev"]⟩,
  .lazy c!"V.A" ⟨none, [], [⟨c!"voltampere", some c!"voltamperes"⟩], [c!"VA"]⟩,
  .lazy c!"9.80950e3 W" ⟨none, [], [⟨c!"boiler_horsepower", some c!"boiler_horsepowers"⟩], []⟩,
  .lazy c!"7.456999e2 W" ⟨none, [], [⟨c!"shaft_horsepower", some c!"shaft_horsepowers"⟩, ⟨c!"horsepower", some c!"horsepowers"⟩], [c!"hp"]⟩,
  .lazy c!"7.35499e2 W" ⟨none, [], [⟨c!"metric_horsepower", some c!"metric_horsepowers"⟩], []⟩,
  .lazy c!"7.460000e2 W" ⟨none, [], [⟨c!"electric_horsepower", some c!"electric_horsepowers"⟩], []⟩,
  .lazy c!"7.46043e2 W" ⟨none, [], [⟨c!"water_horsepower", some c!"water_horsepowers"⟩], []⟩,
  .lazy c!"7.4570e2 W" ⟨none, [], [⟨c!"UK_horsepower", some c!"UK_horsepowers"⟩], []⟩,
  .lazy c!"12000 Btu/hr" ⟨none, [], [⟨c!"refrigeration_ton", some c!"refrigeration_tons"⟩, ⟨c!"ton_of_refrigeration", some c!"tons_of_refrigeration"⟩], []⟩,
  .lazy c!"lg(re 1 W)" ⟨none, [], [], [c!"BW"]⟩,
  .lazy c!"lg(re 1 mW)" ⟨none, [], [], [c!"Bm"]⟩,
  .lazy c!"1.55e-1 K.m^2/W" ⟨none, [], [⟨c!"clo", some c!"clos"⟩], []⟩,
  .lazy c!"10 A" ⟨none, [], [⟨c!"abampere", some c!"abamperes"⟩], []⟩,
  .lazy c!"7.957747e-1 A" ⟨none, [], [⟨c!"gilbert", some c!"gilberts"⟩], []⟩,
  .lazy c!"3.335640e-10 A" ⟨none, [], [⟨c!"statampere", some c!"statamperes"⟩], []⟩,
  .lazy c!"10 A" ⟨none, [], [⟨c!"biot", some c!"biots"⟩], []⟩,
  .lazy c!"1e9 F" ⟨none, [], [⟨c!"abfarad", some c!"abfarads"⟩], []⟩,
  .lazy c!"1e-9 H" ⟨none, [], [⟨c!"abhenry", some c!"abhenrys"⟩], []⟩,
  .lazy c!"1e9 S" ⟨none, [], [⟨c!"abmho", some c!"abmhos"⟩], []⟩,
  .lazy c!"1e-9 ohm" ⟨none, [], [⟨c!"abohm", some c!"abohms"⟩], []⟩,
  .lazy c!"1e-8 V" ⟨none, [], [⟨c!"abvolt", some c!"abvolts"⟩], []⟩,
  .lazy c!"1.602176487e-19 C" ⟨none, [], [], [c!"e"]⟩,
  .lazy c!"9.64957e4 C" ⟨none, [], [⟨c!"chemical_faraday", some c!"chemical_faradays"⟩], []⟩
]

/-- declarations of units 240–275 of `udunits2_combined.xml` -/
def decls6 : List UnitDecl := [
  .lazy c!"9.65219e4 C" ⟨none, [], [⟨c!"physical_faraday", some c!"physical_faradays"⟩], []⟩,
  .lazy c!"9.648531e4 C" ⟨none, [], [⟨c!"C12_faraday", some c!"C12_faradays"⟩, ⟨c!"faraday", some c!"faradays"⟩], []⟩,
  .lazy c!"1e-9 T" ⟨none, [], [⟨c!"gamma", some c!"gammas"⟩], []⟩,
  .lazy c!"1e-4 T" ⟨none, [], [⟨c!"gauss", some c!"gausses"⟩], []⟩,
  .lazy c!"1e-8 Wb" ⟨none, [], [⟨c!"maxwell", some c!"maxwells"⟩], []⟩,
  .lazy c!"7.957747e1 A/m" ⟨none, [], [⟨c!"oersted", some c!"oersteds"⟩], [c!"Oe"]⟩,
  .lazy c!"3.335640e-10 C" ⟨none, [], [⟨c!"statcoulomb", some c!"statcoulombs"⟩], []⟩,
  .lazy c!"1.112650e-12 F" ⟨none, [], [⟨c!"statfarad", some c!"statfarads"⟩], []⟩,
  .lazy c!"8.987554e11 H" ⟨none, [], [⟨c!"stathenry", some c!"stathenrys"⟩], []⟩,
  .lazy c!"1.112650e-12 S" ⟨none, [], [⟨c!"statmho", some c!"statmhos"⟩], []⟩,
  .lazy c!"8.987554e11 ohm" ⟨none, [], [⟨c!"statohm", some c!"statohms"⟩], []⟩,
  .lazy c!"2.997925e2 V" ⟨none, [], [⟨c!"statvolt", some c!"statvolts"⟩], []⟩,
  .lazy c!"1.256637e-7 Wb" ⟨none, [], [⟨c!"unit_pole", some c!"unit_poles"⟩], []⟩,
  .lazy c!"lg(re 1 V)" ⟨none, [], [], [c!"BV"]⟩,
  .lazy c!"lg(re 0.775 V)" ⟨none, [], [], [c!"Bv"]⟩,
  .lazy c!"lg(re 1e-6 V)" ⟨none, [], [], [c!"BµV"]⟩,
  .lazy c!"K/1.8" ⟨none, [], [⟨c!"degree_rankine", some c!"degrees_rankine"⟩, ⟨c!"degreeR", some c!"degreesR"⟩, ⟨c!"degree_R", some c!"degrees_R"⟩, ⟨c!"degR", some c!"degsR"⟩, ⟨c!"deg_R", some c!"degs_R"⟩], [c!"°R"]⟩,
  .lazy c!"°R @ 459.67" ⟨none, [], [⟨c!"fahrenheit", some c!"fahrenheits"⟩, ⟨c!"degree_fahrenheit", some c!"degrees_fahrenheit"⟩, ⟨c!"degreeF", some c!"degreesF"⟩, ⟨c!"degree_F", some c!"degrees_F"⟩, ⟨c!"degF", some c!"degsF"⟩, ⟨c!"deg_F", some c!"degs_F"⟩], [c!"°F", c!"℉"]⟩,
  .lazy c!"1.076391e-1 lx" ⟨none, [], [⟨c!"footcandle", some c!"footcandles"⟩], []⟩,
  .lazy c!"3.426259 cd/m^2" ⟨none, [], [⟨c!"footlambert", some c!"footlamberts"⟩], []⟩,
  .lazy c!"(1e4/pi) cd/m^2" ⟨none, [], [⟨c!"lambert", some c!"lamberts"⟩], []⟩,
  .lazy c!"1e4 cd/m^2" ⟨none, [], [⟨c!"stilb", some c!"stilbs"⟩], [c!"sb"]⟩,
  .lazy c!"1e4 lm/m^2" ⟨none, [], [⟨c!"phot", some c!"phots"⟩], [c!"ph"]⟩,
  .lazy c!"1 cd/m^2" ⟨none, [], [⟨c!"nit", some c!"nits"⟩], [c!"nt"]⟩,
  .lazy c!"4.184000e4 J/m^2" ⟨none, [], [⟨c!"langley", some c!"langleys"⟩], []⟩,
  .lazy c!"cd/(pi m^2)" ⟨none, [], [⟨c!"blondel", some c!"blondels"⟩, ⟨c!"apostilb", some c!"apostilbs"⟩], []⟩,
  .lazy c!"100/m" ⟨none, [], [⟨c!"kayser", some c!"kaysers"⟩], []⟩,
  .lazy c!"gravity" ⟨none, [], [⟨c!"geopotential", some c!"geopotentials"⟩, ⟨c!"dynamic", some c!"dynamics"⟩], [c!"gp"]⟩,
  .lazy c!"2056 hours" ⟨none, [], [⟨c!"work_year", some c!"work_years"⟩], []⟩,
  .lazy c!"work_year/12" ⟨none, [], [⟨c!"work_month", some c!"work_months"⟩], []⟩,
  .lazy c!"1e-6 m^2 s^-1 K kg^-1" ⟨none, [], [⟨c!"potential_vorticity_unit", some c!"potential_vorticity_units"⟩], [c!"PVU"]⟩,
  .lazy c!"1" ⟨none, [], [⟨c!"count", some c!"counts"⟩], []⟩,
  .lazy c!"1" ⟨none, [], [⟨c!"bit", some c!"bits"⟩], []⟩,
  .lazy c!"8" ⟨none, [], [⟨c!"octet", some c!"octets"⟩, ⟨c!"byte", some c!"bytes"⟩], []⟩,
  .lazy c!"446.2 micromoles/meter^2" ⟨none, [], [⟨c!"dobson", some c!"dobsons"⟩], [c!"DU"]⟩,
  .lazy c!"1/avogadro_constant" ⟨some ⟨c!"molecule", some c!"molecules"⟩, [], [⟨c!"molec", some c!"molecs"⟩, ⟨c!"nucleon", some c!"nucleons"⟩, ⟨c!"nuc", some c!"nucs"⟩], []⟩
]

/-- all units declared in `udunits2_combined.xml` -/
def decls : List UnitDecl := decls0 ++ decls1 ++ decls2 ++ decls3 ++ decls4 ++ decls5 ++ decls6

/-- all prefixes declared in `udunits2_combined.xml`, symbols in document order -/
def prefixes : List Prefix := [
  ⟨c!"yotta", c!"1e24", [c!"Y"]⟩,
  ⟨c!"zetta", c!"1e21", [c!"Z"]⟩,
  ⟨c!"exa", c!"1e18", [c!"E"]⟩,
  ⟨c!"peta", c!"1e15", [c!"P"]⟩,
  ⟨c!"tera", c!"1e12", [c!"T"]⟩,
  ⟨c!"giga", c!"1e9", [c!"G"]⟩,
  ⟨c!"mega", c!"1e6", [c!"M"]⟩,
  ⟨c!"kilo", c!"1e3", [c!"k"]⟩,
  ⟨c!"hecto", c!"100", [c!"h"]⟩,
  ⟨c!"deka", c!"10", [c!"da"]⟩,
  ⟨c!"deci", c!".1", [c!"d"]⟩,
  ⟨c!"centi", c!".01", [c!"c"]⟩,
  ⟨c!"milli", c!"1e-3", [c!"m"]⟩,
  ⟨c!"micro", c!"1e-6", [c!"µ", c!"μ", c!"u"]⟩,
  ⟨c!"nano", c!"1e-9", [c!"n"]⟩,
  ⟨c!"pico", c!"1e-12", [c!"p"]⟩,
  ⟨c!"femto", c!"1e-15", [c!"f"]⟩,
  ⟨c!"atto", c!"1e-18", [c!"a"]⟩,
  ⟨c!"zepto", c!"1e-21", [c!"z"]⟩,
  ⟨c!"yocto", c!"1e-24", [c!"y"]⟩
]

end Verif.Db
