import Verif.Model.Xml
/-!
# The shipped database (generated by tools/mkdb.py)

The `unit-system` element of `pyudunits2/udunits2_combined.xml`, element by element, as `Tag.from_element` builds it
(namespaces dropped, texts stripped).  The prose inside `comment` and `definition` elements is left out.
-/

namespace Verif.Db

/-- tag name -/
abbrev tPrefix : Str := c!"prefix"
/-- tag name -/
abbrev tUnit : Str := c!"unit"
/-- tag name -/
abbrev tValue : Str := c!"value"
/-- tag name -/
abbrev tName : Str := c!"name"
/-- tag name -/
abbrev tSymbol : Str := c!"symbol"
/-- tag name -/
abbrev tDef : Str := c!"def"
/-- tag name -/
abbrev tBase : Str := c!"base"
/-- tag name -/
abbrev tDimensionless : Str := c!"dimensionless"
/-- tag name -/
abbrev tAliases : Str := c!"aliases"
/-- tag name -/
abbrev tSingular : Str := c!"singular"
/-- tag name -/
abbrev tPlural : Str := c!"plural"
/-- tag name -/
abbrev tNoplural : Str := c!"noplural"
/-- tag name -/
abbrev tComment : Str := c!"comment"
/-- tag name -/
abbrev tDefinition : Str := c!"definition"

/-- `udunits2_combined.xml`, children 0–39 of `unit-system` -/
def part0 : List Tag := [
  .mk tPrefix [.mk tValue [] c!"1e24", .mk tName [] c!"yotta", .mk tSymbol [] c!"Y"] [],
  .mk tPrefix [.mk tValue [] c!"1e21", .mk tName [] c!"zetta", .mk tSymbol [] c!"Z"] [],
  .mk tPrefix [.mk tValue [] c!"1e18", .mk tName [] c!"exa", .mk tSymbol [] c!"E"] [],
  .mk tPrefix [.mk tValue [] c!"1e15", .mk tName [] c!"peta", .mk tSymbol [] c!"P"] [],
  .mk tPrefix [.mk tValue [] c!"1e12", .mk tName [] c!"tera", .mk tSymbol [] c!"T"] [],
  .mk tPrefix [.mk tValue [] c!"1e9", .mk tName [] c!"giga", .mk tSymbol [] c!"G"] [],
  .mk tPrefix [.mk tValue [] c!"1e6", .mk tName [] c!"mega", .mk tSymbol [] c!"M"] [],
  .mk tPrefix [.mk tValue [] c!"1e3", .mk tName [] c!"kilo", .mk tSymbol [] c!"k"] [],
  .mk tPrefix [.mk tValue [] c!"100", .mk tName [] c!"hecto", .mk tSymbol [] c!"h"] [],
  .mk tPrefix [.mk tValue [] c!"10", .mk tName [] c!"deka", .mk tSymbol [] c!"da"] [],
  .mk tPrefix [.mk tValue [] c!".1", .mk tName [] c!"deci", .mk tSymbol [] c!"d"] [],
  .mk tPrefix [.mk tValue [] c!".01", .mk tName [] c!"centi", .mk tSymbol [] c!"c"] [],
  .mk tPrefix [.mk tValue [] c!"1e-3", .mk tName [] c!"milli", .mk tSymbol [] c!"m"] [],
  .mk tPrefix [.mk tValue [] c!"1e-6", .mk tName [] c!"micro", .mk tSymbol [] c!"µ", .mk tSymbol [] c!"μ", .mk tSymbol [] c!"u"] [],
  .mk tPrefix [.mk tValue [] c!"1e-9", .mk tName [] c!"nano", .mk tSymbol [] c!"n"] [],
  .mk tPrefix [.mk tValue [] c!"1e-12", .mk tName [] c!"pico", .mk tSymbol [] c!"p"] [],
  .mk tPrefix [.mk tValue [] c!"1e-15", .mk tName [] c!"femto", .mk tSymbol [] c!"f"] [],
  .mk tPrefix [.mk tValue [] c!"1e-18", .mk tName [] c!"atto", .mk tSymbol [] c!"a"] [],
  .mk tPrefix [.mk tValue [] c!"1e-21", .mk tName [] c!"zepto", .mk tSymbol [] c!"z"] [],
  .mk tPrefix [.mk tValue [] c!"1e-24", .mk tName [] c!"yocto", .mk tSymbol [] c!"y"] [],
  .mk tUnit [.mk tBase [] [], .mk tName [.mk tSingular [] c!"meter"] [], .mk tSymbol [] c!"m", .mk tAliases [.mk tName [.mk tSingular [] c!"metre"] []] [], .mk tDefinition [] []] [],
  .mk tUnit [.mk tBase [] [], .mk tName [.mk tSingular [] c!"kilogram"] [], .mk tSymbol [] c!"kg", .mk tDefinition [] []] [],
  .mk tUnit [.mk tBase [] [], .mk tName [.mk tSingular [] c!"second"] [], .mk tSymbol [] c!"s", .mk tDefinition [] []] [],
  .mk tUnit [.mk tBase [] [], .mk tName [.mk tSingular [] c!"ampere"] [], .mk tSymbol [] c!"A", .mk tDefinition [] []] [],
  .mk tUnit [.mk tBase [] [], .mk tName [.mk tSingular [] c!"kelvin"] [], .mk tSymbol [] c!"K", .mk tDefinition [] []] [],
  .mk tUnit [.mk tBase [] [], .mk tName [.mk tSingular [] c!"mole"] [], .mk tSymbol [] c!"mol", .mk tDefinition [] []] [],
  .mk tUnit [.mk tBase [] [], .mk tName [.mk tSingular [] c!"candela"] [], .mk tSymbol [] c!"cd", .mk tDefinition [] []] [],
  .mk tUnit [.mk tComment [] [], .mk tDimensionless [] [], .mk tName [.mk tSingular [] c!"radian"] [], .mk tSymbol [] c!"rad", .mk tDefinition [] []] [],
  .mk tUnit [.mk tComment [] [], .mk tDef [] c!"rad^2", .mk tName [.mk tSingular [] c!"steradian"] [], .mk tSymbol [] c!"sr", .mk tDefinition [] []] [],
  .mk tUnit [.mk tComment [] [], .mk tDef [] c!"1/s", .mk tName [.mk tSingular [] c!"hertz"] [], .mk tSymbol [] c!"Hz", .mk tDefinition [] []] [],
  .mk tUnit [.mk tComment [] [], .mk tDef [] c!"1e-3 kg", .mk tName [.mk tSingular [] c!"gram"] [], .mk tSymbol [] c!"g", .mk tDefinition [] []] [],
  .mk tUnit [.mk tComment [] [], .mk tDef [] c!"m.kg/s^2", .mk tName [.mk tSingular [] c!"newton"] [], .mk tSymbol [] c!"N", .mk tDefinition [] []] [],
  .mk tUnit [.mk tComment [] [], .mk tDef [] c!"N/m^2", .mk tName [.mk tSingular [] c!"pascal"] [], .mk tSymbol [] c!"Pa", .mk tDefinition [] []] [],
  .mk tUnit [.mk tComment [] [], .mk tDef [] c!"N.m", .mk tName [.mk tSingular [] c!"joule"] [], .mk tSymbol [] c!"J", .mk tDefinition [] []] [],
  .mk tUnit [.mk tComment [] [], .mk tDef [] c!"J/s", .mk tName [.mk tSingular [] c!"watt"] [], .mk tSymbol [] c!"W", .mk tDefinition [] []] [],
  .mk tUnit [.mk tComment [] [], .mk tDef [] c!"s.A", .mk tName [.mk tSingular [] c!"coulomb"] [], .mk tSymbol [] c!"C", .mk tDefinition [] []] [],
  .mk tUnit [.mk tComment [] [], .mk tDef [] c!"W/A", .mk tName [.mk tSingular [] c!"volt"] [], .mk tSymbol [] c!"V", .mk tDefinition [] []] [],
  .mk tUnit [.mk tComment [] [], .mk tDef [] c!"C/V", .mk tName [.mk tSingular [] c!"farad"] [], .mk tSymbol [] c!"F", .mk tDefinition [] []] [],
  .mk tUnit [.mk tComment [] [], .mk tDef [] c!"V/A", .mk tName [.mk tSingular [] c!"ohm"] [], .mk tSymbol [] c!"Ω", .mk tAliases [.mk tSymbol [] c!"Ω"] [], .mk tDefinition [] []] [],
  .mk tUnit [.mk tComment [] [], .mk tDef [] c!"A/V", .mk tName [.mk tSingular [] c!"siemens"] [], .mk tSymbol [] c!"S", .mk tDefinition [] []] []
]

/-- `udunits2_combined.xml`, children 40–79 of `unit-system` -/
def part1 : List Tag := [
  .mk tUnit [.mk tComment [] [], .mk tDef [] c!"V.s", .mk tName [.mk tSingular [] c!"weber"] [], .mk tSymbol [] c!"Wb", .mk tDefinition [] []] [],
  .mk tUnit [.mk tComment [] [], .mk tDef [] c!"Wb/m^2", .mk tName [.mk tSingular [] c!"tesla"] [], .mk tSymbol [] c!"T", .mk tDefinition [] []] [],
  .mk tUnit [.mk tComment [] [], .mk tDef [] c!"Wb/A", .mk tName [.mk tSingular [] c!"henry"] [], .mk tSymbol [] c!"H", .mk tDefinition [] []] [],
  .mk tUnit [.mk tComment [] [], .mk tDef [] c!"K @ 273.15", .mk tName [.mk tSingular [] c!"degree_Celsius", .mk tPlural [] c!"degrees_Celsius"] [], .mk tSymbol [] c!"°C", .mk tDefinition [] []] [],
  .mk tUnit [.mk tComment [] [], .mk tDef [] c!"cd.sr", .mk tName [.mk tSingular [] c!"lumen"] [], .mk tSymbol [] c!"lm", .mk tDefinition [] []] [],
  .mk tUnit [.mk tComment [] [], .mk tDef [] c!"lm/m^2", .mk tName [.mk tSingular [] c!"lux"] [], .mk tSymbol [] c!"lx", .mk tDefinition [] []] [],
  .mk tUnit [.mk tComment [] [], .mk tDef [] c!"mol/s", .mk tName [.mk tSingular [] c!"katal"] [], .mk tSymbol [] c!"kat", .mk tDefinition [] []] [],
  .mk tUnit [.mk tComment [] [], .mk tDef [] c!"1/s", .mk tAliases [.mk tName [.mk tSingular [] c!"becquerel"] [], .mk tSymbol [] c!"Bq"] [], .mk tDefinition [] []] [],
  .mk tUnit [.mk tComment [] [], .mk tDef [] c!"J/kg", .mk tName [.mk tSingular [] c!"gray"] [], .mk tSymbol [] c!"Gy", .mk tDefinition [] []] [],
  .mk tUnit [.mk tComment [] [], .mk tDef [] c!"J/kg", .mk tAliases [.mk tName [.mk tSingular [] c!"sievert"] [], .mk tSymbol [] c!"Sv"] [], .mk tDefinition [] []] [],
  .mk tUnit [.mk tDef [] c!"60 s", .mk tName [.mk tSingular [] c!"minute"] [], .mk tSymbol [] c!"min", .mk tDefinition [] []] [],
  .mk tUnit [.mk tDef [] c!"60 min", .mk tName [.mk tSingular [] c!"hour"] [], .mk tSymbol [] c!"h", .mk tAliases [.mk tSymbol [] c!"hr"] [], .mk tDefinition [] []] [],
  .mk tUnit [.mk tDef [] c!"24 h", .mk tName [.mk tSingular [] c!"day"] [], .mk tSymbol [] c!"d", .mk tDefinition [] []] [],
  .mk tUnit [.mk tComment [] [], .mk tDef [] c!"3.141592653589793238462643383279", .mk tAliases [.mk tName [.mk tSingular [] c!"pi", .mk tNoplural [] []] [], .mk tSymbol [] c!"π"] [], .mk tDefinition [] []] [],
  .mk tUnit [.mk tDef [] c!"(pi/180) rad", .mk tName [.mk tSingular [] c!"arc_degree"] [], .mk tSymbol [] c!"°", .mk tAliases [.mk tName [.mk tSingular [] c!"angular_degree"] [], .mk tName [.mk tSingular [] c!"degree"] [], .mk tName [.mk tSingular [] c!"arcdeg"] []] [], .mk tDefinition [] []] [],
  .mk tUnit [.mk tDef [] c!"°/60", .mk tName [.mk tSingular [] c!"arc_minute"] [], .mk tSymbol [] c!"'", .mk tSymbol [] c!"′", .mk tAliases [.mk tName [.mk tSingular [] c!"angular_minute"] [], .mk tName [.mk tSingular [] c!"arcminute"] [], .mk tName [.mk tSingular [] c!"arcmin"] []] [], .mk tDefinition [] []] [],
  .mk tUnit [.mk tDef [] c!"'/60", .mk tName [.mk tSingular [] c!"arc_second"] [], .mk tSymbol [] c!"\"", .mk tSymbol [] c!"″", .mk tAliases [.mk tName [.mk tSingular [] c!"angular_second"] [], .mk tName [.mk tSingular [] c!"arcsecond"] [], .mk tName [.mk tSingular [] c!"arcsec"] []] [], .mk tDefinition [] []] [],
  .mk tUnit [.mk tComment [] [], .mk tDef [] c!"dm^3", .mk tName [.mk tSingular [] c!"liter"] [], .mk tSymbol [] c!"L", .mk tAliases [.mk tName [.mk tSingular [] c!"litre"] [], .mk tSymbol [] c!"l"] [], .mk tDefinition [] []] [],
  .mk tUnit [.mk tDef [] c!"1000 kg", .mk tName [.mk tSingular [] c!"metric_ton"] [], .mk tSymbol [] c!"t", .mk tAliases [.mk tName [.mk tSingular [] c!"tonne"] []] [], .mk tDefinition [] []] [],
  .mk tUnit [.mk tComment [] [], .mk tDef [] c!"1.60217733e-19 J", .mk tName [.mk tSingular [] c!"electronvolt"] [], .mk tSymbol [] c!"eV", .mk tAliases [.mk tName [.mk tSingular [] c!"electron_volt"] []] [], .mk tDefinition [] []] [],
  .mk tUnit [.mk tComment [] [], .mk tDef [] c!"1.6605402e-27 kg", .mk tName [.mk tSingular [] c!"unified_atomic_mass_unit"] [], .mk tSymbol [] c!"u", .mk tAliases [.mk tName [.mk tSingular [] c!"atomic_mass_unit"] [], .mk tName [.mk tSingular [] c!"atomicmassunit"] [], .mk tName [.mk tSingular [] c!"amu", .mk tNoplural [] []] []] [], .mk tDefinition [] []] [],
  .mk tUnit [.mk tComment [] [], .mk tDef [] c!"1.49597870700e11 m", .mk tAliases [.mk tName [.mk tSingular [] c!"astronomical_unit"] [], .mk tSymbol [] c!"au"] [], .mk tDefinition [] []] [],
  .mk tUnit [.mk tComment [] [], .mk tDef [] c!"1.495979e11 m", .mk tAliases [.mk tName [.mk tSingular [] c!"astronomical_unit_BIPM_2006"] [], .mk tSymbol [] c!"ua"] [], .mk tDefinition [] []] [],
  .mk tUnit [.mk tComment [] [], .mk tDef [] c!"1852 m", .mk tAliases [.mk tName [.mk tSingular [] c!"nautical_mile"] []] [], .mk tDefinition [] []] [],
  .mk tUnit [.mk tComment [] [], .mk tDef [] c!"nautical_mile/hour", .mk tAliases [.mk tName [.mk tSingular [] c!"international_knot"] [], .mk tName [.mk tSingular [] c!"knot_international"] [], .mk tName [.mk tSingular [] c!"knot"] []] [], .mk tDefinition [] []] [],
  .mk tUnit [.mk tComment [] [], .mk tDef [] c!"1e-10 m", .mk tAliases [.mk tName [.mk tSingular [] c!"angstrom"] [], .mk tName [.mk tSingular [] c!"ångström"] [], .mk tSymbol [] c!"Å", .mk tSymbol [] c!"Å"] [], .mk tDefinition [] []] [],
  .mk tUnit [.mk tComment [] [], .mk tDef [] c!"dam^2", .mk tAliases [.mk tName [.mk tSingular [] c!"are"] [], .mk tSymbol [] c!"a"] [], .mk tDefinition [] []] [],
  .mk tUnit [.mk tComment [] [], .mk tDef [] c!"100 are", .mk tAliases [.mk tName [.mk tSingular [] c!"hectare"] []] [], .mk tDefinition [] []] [],
  .mk tUnit [.mk tComment [] [], .mk tDef [] c!"100 fm^2", .mk tAliases [.mk tName [.mk tSingular [] c!"barn"] [], .mk tSymbol [] c!"b"] [], .mk tDefinition [] []] [],
  .mk tUnit [.mk tComment [] [], .mk tDef [] c!"1000 hPa", .mk tAliases [.mk tName [.mk tSingular [] c!"bar"] []] [], .mk tDefinition [] []] [],
  .mk tUnit [.mk tComment [] [], .mk tDef [] c!"cm/s^2", .mk tAliases [.mk tName [.mk tSingular [] c!"gal"] []] [], .mk tDefinition [] []] [],
  .mk tUnit [.mk tComment [] [], .mk tDef [] c!"3.7e10 Bq", .mk tAliases [.mk tName [.mk tSingular [] c!"curie"] [], .mk tSymbol [] c!"Ci"] [], .mk tDefinition [] []] [],
  .mk tUnit [.mk tComment [] [], .mk tDef [] c!"2.58e-4 C/kg", .mk tAliases [.mk tName [.mk tSingular [] c!"roentgen"] [], .mk tSymbol [] c!"R"] [], .mk tDefinition [] []] [],
  .mk tUnit [.mk tComment [] [], .mk tDef [] c!"cSv", .mk tAliases [.mk tName [.mk tSingular [] c!"rem"] []] [], .mk tDefinition [] []] [],
  .mk tUnit [.mk tComment [] [], .mk tDef [] c!"s", .mk tAliases [.mk tName [.mk tSingular [] c!"sec"] []] [], .mk tDefinition [] []] [],
  .mk tUnit [.mk tComment [] [], .mk tDef [] c!"A", .mk tAliases [.mk tName [.mk tSingular [] c!"amp"] []] [], .mk tDefinition [] []] [],
  .mk tUnit [.mk tComment [] [], .mk tDef [] c!"K", .mk tAliases [.mk tSymbol [] c!"°K", .mk tName [.mk tSingular [] c!"degree_kelvin", .mk tPlural [] c!"degrees_kelvin"] [], .mk tName [.mk tSingular [] c!"degree_K", .mk tPlural [] c!"degrees_K"] [], .mk tName [.mk tSingular [] c!"degreeK", .mk tPlural [] c!"degreesK"] [], .mk tName [.mk tSingular [] c!"deg_K", .mk tPlural [] c!"degs_K"] [], .mk tName [.mk tSingular [] c!"degK", .mk tPlural [] c!"degsK"] []] [], .mk tDefinition [] []] [],
  .mk tUnit [.mk tComment [] [], .mk tDef [] c!"cd", .mk tAliases [.mk tName [.mk tSingular [] c!"candle"] []] [], .mk tDefinition [] []] [],
  .mk tUnit [.mk tComment [] [], .mk tDef [] c!"mole", .mk tAliases [.mk tName [.mk tSingular [] c!"einstein"] []] [], .mk tDefinition [] []] [],
  .mk tUnit [.mk tComment [] [], .mk tDef [] c!"Hz", .mk tAliases [.mk tName [.mk tSingular [] c!"baud"] [], .mk tSymbol [] c!"Bd", .mk tSymbol [] c!"bps"] [], .mk tDefinition [] []] []
]

/-- `udunits2_combined.xml`, children 80–119 of `unit-system` -/
def part2 : List Tag := [
  .mk tUnit [.mk tComment [] [], .mk tDef [] c!"degree_Celsius", .mk tAliases [.mk tSymbol [] c!"℃", .mk tName [.mk tSingular [] c!"celsius"] [], .mk tName [.mk tSingular [] c!"degree_C", .mk tPlural [] c!"degrees_C"] [], .mk tName [.mk tSingular [] c!"degreeC", .mk tPlural [] c!"degreesC"] [], .mk tName [.mk tSingular [] c!"deg_C", .mk tPlural [] c!"degs_C"] [], .mk tName [.mk tSingular [] c!"degC", .mk tPlural [] c!"degsC"] []] [], .mk tDefinition [] []] [],
  .mk tUnit [.mk tComment [] [], .mk tDef [] c!"knot", .mk tAliases [.mk tSymbol [] c!"kt", .mk tSymbol [] c!"kts"] [], .mk tDefinition [] []] [],
  .mk tUnit [.mk tComment [] [], .mk tDef [] c!"6.02214179e23/mol", .mk tAliases [.mk tName [.mk tSingular [] c!"avogadro_constant"] [], .mk tNoplural [] []] [], .mk tDefinition [] []] [],
  .mk tUnit [.mk tComment [] [], .mk tDef [] c!"0.01", .mk tAliases [.mk tName [.mk tSingular [] c!"percent"] [], .mk tNoplural [] [], .mk tSymbol [] c!"%"] [], .mk tDefinition [] []] [],
  .mk tUnit [.mk tComment [] [], .mk tDef [] c!"1", .mk tAliases [.mk tSymbol [] c!"ppv"] [], .mk tDefinition [] []] [],
  .mk tUnit [.mk tComment [] [], .mk tDef [] c!"1e-6", .mk tAliases [.mk tSymbol [] c!"ppm", .mk tSymbol [] c!"ppmv"] [], .mk tDefinition [] []] [],
  .mk tUnit [.mk tComment [] [], .mk tDef [] c!"1e-9", .mk tAliases [.mk tSymbol [] c!"ppb", .mk tSymbol [] c!"ppbv"] [], .mk tDefinition [] []] [],
  .mk tUnit [.mk tComment [] [], .mk tDef [] c!"1e-12", .mk tAliases [.mk tSymbol [] c!"ppt", .mk tSymbol [] c!"pptv"] [], .mk tDefinition [] []] [],
  .mk tUnit [.mk tComment [] [], .mk tDef [] c!"1e-15", .mk tAliases [.mk tSymbol [] c!"ppq", .mk tSymbol [] c!"ppqv"] [], .mk tDefinition [] []] [],
  .mk tUnit [.mk tDef [] c!"0.9 arc_degree", .mk tAliases [.mk tName [.mk tSingular [] c!"grade"] []] [], .mk tDefinition [] []] [],
  .mk tUnit [.mk tDef [] c!"2 pi rad", .mk tAliases [.mk tName [.mk tSingular [] c!"circle"] [], .mk tName [.mk tSingular [] c!"cycle"] [], .mk tName [.mk tSingular [] c!"turn"] [], .mk tName [.mk tSingular [] c!"revolution"] [], .mk tName [.mk tSingular [] c!"rotation"] []] [], .mk tDefinition [] []] [],
  .mk tUnit [.mk tDef [] c!"arc_degree", .mk tAliases [.mk tName [.mk tSingular [] c!"degree_north", .mk tPlural [] c!"degrees_north"] [], .mk tName [.mk tSingular [] c!"degree_N", .mk tPlural [] c!"degrees_N"] [], .mk tName [.mk tSingular [] c!"degreeN", .mk tPlural [] c!"degreesN"] [], .mk tName [.mk tSingular [] c!"degree_east", .mk tPlural [] c!"degrees_east"] [], .mk tName [.mk tSingular [] c!"degree_E", .mk tPlural [] c!"degrees_E"] [], .mk tName [.mk tSingular [] c!"degreeE", .mk tPlural [] c!"degreesE"] [], .mk tName [.mk tSingular [] c!"degree_true", .mk tPlural [] c!"degrees_true"] [], .mk tName [.mk tSingular [] c!"degree_T", .mk tPlural [] c!"degrees_T"] [], .mk tName [.mk tSingular [] c!"degreeT", .mk tPlural [] c!"degreesT"] []] [], .mk tDefinition [] []] [],
  .mk tUnit [.mk tDef [] c!"-1 degree_east", .mk tAliases [.mk tName [.mk tSingular [] c!"degree_west", .mk tPlural [] c!"degrees_west"] [], .mk tName [.mk tSingular [] c!"degree_W", .mk tPlural [] c!"degrees_W"] [], .mk tName [.mk tSingular [] c!"degreeW", .mk tPlural [] c!"degreesW"] []] [], .mk tDefinition [] []] [],
  .mk tUnit [.mk tDef [] c!"2.916667e-2 kg", .mk tAliases [.mk tName [.mk tSingular [] c!"assay_ton"] []] [], .mk tDefinition [] []] [],
  .mk tUnit [.mk tDef [] c!"2.834952e-2 kg", .mk tAliases [.mk tName [.mk tSingular [] c!"avoirdupois_ounce"] []] [], .mk tDefinition [] []] [],
  .mk tUnit [.mk tDef [] c!"4.5359237e-1 kg", .mk tAliases [.mk tName [.mk tSingular [] c!"avoirdupois_pound"] [], .mk tName [.mk tSingular [] c!"pound"] [], .mk tSymbol [] c!"lb"] [], .mk tDefinition [] []] [],
  .mk tUnit [.mk tDef [] c!"2e-4 kg", .mk tAliases [.mk tName [.mk tSingular [] c!"carat"] []] [], .mk tDefinition [] []] [],
  .mk tUnit [.mk tDef [] c!"6.479891e-5 kg", .mk tAliases [.mk tName [.mk tSingular [] c!"grain"] [], .mk tSymbol [] c!"gr"] [], .mk tDefinition [] []] [],
  .mk tUnit [.mk tDef [] c!"5.080235e1 kg", .mk tAliases [.mk tName [.mk tSingular [] c!"long_hundredweight"] []] [], .mk tDefinition [] []] [],
  .mk tUnit [.mk tDef [] c!"1.555174e-3 kg", .mk tAliases [.mk tName [.mk tSingular [] c!"pennyweight"] []] [], .mk tDefinition [] []] [],
  .mk tUnit [.mk tDef [] c!"4.535924e1 kg", .mk tAliases [.mk tName [.mk tSingular [] c!"short_hundredweight"] []] [], .mk tDefinition [] []] [],
  .mk tUnit [.mk tDef [] c!"14.59390 kg", .mk tAliases [.mk tName [.mk tSingular [] c!"slug"] []] [], .mk tDefinition [] []] [],
  .mk tUnit [.mk tDef [] c!"3.110348e-2 kg", .mk tAliases [.mk tName [.mk tSingular [] c!"troy_ounce"] [], .mk tName [.mk tSingular [] c!"apothecary_ounce"] []] [], .mk tDefinition [] []] [],
  .mk tUnit [.mk tDef [] c!"3.732417e-1 kg", .mk tAliases [.mk tName [.mk tSingular [] c!"troy_pound"] [], .mk tName [.mk tSingular [] c!"apothecary_pound"] []] [], .mk tDefinition [] []] [],
  .mk tUnit [.mk tDef [] c!"20 grain", .mk tAliases [.mk tName [.mk tSingular [] c!"scruple"] []] [], .mk tDefinition [] []] [],
  .mk tUnit [.mk tDef [] c!"60 grain", .mk tAliases [.mk tName [.mk tSingular [] c!"apdram"] []] [], .mk tDefinition [] []] [],
  .mk tUnit [.mk tComment [] [], .mk tDef [] c!"avoirdupois_ounce/16", .mk tAliases [.mk tName [.mk tSingular [] c!"dram"] [], .mk tSymbol [] c!"dr"] [], .mk tDefinition [] []] [],
  .mk tUnit [.mk tDef [] c!"480 grain", .mk tAliases [.mk tName [.mk tSingular [] c!"apounce"] []] [], .mk tDefinition [] []] [],
  .mk tUnit [.mk tDef [] c!"5760 grain", .mk tAliases [.mk tName [.mk tSingular [] c!"appound"] []] [], .mk tDefinition [] []] [],
  .mk tUnit [.mk tDef [] c!"94 pound", .mk tAliases [.mk tName [.mk tSingular [] c!"bag"] []] [], .mk tDefinition [] []] [],
  .mk tUnit [.mk tDef [] c!"2000 pound", .mk tAliases [.mk tName [.mk tSingular [] c!"short_ton"] [], .mk tName [.mk tSingular [] c!"ton"] []] [], .mk tDefinition [] []] [],
  .mk tUnit [.mk tDef [] c!"2240 pound", .mk tAliases [.mk tName [.mk tSingular [] c!"long_ton"] []] [], .mk tDefinition [] []] [],
  .mk tUnit [.mk tDef [] c!"1e-15 m", .mk tAliases [.mk tName [.mk tSingular [] c!"fermi"] []] [], .mk tDefinition [] []] [],
  .mk tUnit [.mk tDef [] c!"9.46073e15 m", .mk tAliases [.mk tName [.mk tSingular [] c!"light_year"] []] [], .mk tDefinition [] []] [],
  .mk tUnit [.mk tDef [] c!"1e-6 m", .mk tAliases [.mk tName [.mk tSingular [] c!"micron"] []] [], .mk tDefinition [] []] [],
  .mk tUnit [.mk tDef [] c!"2.54e-5 m", .mk tAliases [.mk tName [.mk tSingular [] c!"mil"] []] [], .mk tDefinition [] []] [],
  .mk tUnit [.mk tDef [] c!"3.085678e16 m", .mk tAliases [.mk tName [.mk tSingular [] c!"parsec"] []] [], .mk tDefinition [] []] [],
  .mk tUnit [.mk tDef [] c!"3.514598e-4 m", .mk tAliases [.mk tName [.mk tSingular [] c!"printers_point"] []] [], .mk tDefinition [] []] [],
  .mk tUnit [.mk tDef [] c!"2.011684e1 m", .mk tAliases [.mk tName [.mk tSingular [] c!"chain"] []] [], .mk tDefinition [] []] [],
  .mk tUnit [.mk tDef [] c!"12 printers_point", .mk tAliases [.mk tName [.mk tSingular [] c!"printers_pica"] [], .mk tName [.mk tSingular [] c!"pica"] []] [], .mk tDefinition [] []] []
]

/-- `udunits2_combined.xml`, children 120–159 of `unit-system` -/
def part3 : List Tag := [
  .mk tUnit [.mk tDef [] c!"nautical_mile", .mk tAliases [.mk tName [.mk tSingular [] c!"nmile"] []] [], .mk tDefinition [] []] [],
  .mk tUnit [.mk tDef [] c!"(1200/3937) m", .mk tAliases [.mk tName [.mk tSingular [] c!"US_survey_foot", .mk tPlural [] c!"US_survey_feet"] []] [], .mk tDefinition [] []] [],
  .mk tUnit [.mk tDef [] c!"3 US_survey_feet", .mk tAliases [.mk tName [.mk tSingular [] c!"US_survey_yard"] []] [], .mk tDefinition [] []] [],
  .mk tUnit [.mk tDef [] c!"5280 US_survey_feet", .mk tAliases [.mk tName [.mk tSingular [] c!"US_survey_mile"] [], .mk tName [.mk tSingular [] c!"US_statute_mile"] []] [], .mk tDefinition [] []] [],
  .mk tUnit [.mk tDef [] c!"16.5 US_survey_feet", .mk tAliases [.mk tName [.mk tSingular [] c!"rod"] [], .mk tName [.mk tSingular [] c!"pole"] [], .mk tName [.mk tSingular [] c!"perch"] []] [], .mk tDefinition [] []] [],
  .mk tUnit [.mk tDef [] c!"660 US_survey_feet", .mk tAliases [.mk tName [.mk tSingular [] c!"furlong"] []] [], .mk tDefinition [] []] [],
  .mk tUnit [.mk tDef [] c!"6 US_survey_feet", .mk tAliases [.mk tName [.mk tSingular [] c!"fathom"] []] [], .mk tDefinition [] []] [],
  .mk tUnit [.mk tDef [] c!"2.54 cm", .mk tAliases [.mk tName [.mk tSingular [] c!"international_inch"] [], .mk tName [.mk tSingular [] c!"inch"] [], .mk tSymbol [] c!"in"] [], .mk tDefinition [] []] [],
  .mk tUnit [.mk tDef [] c!"12 international_inches", .mk tAliases [.mk tName [.mk tSingular [] c!"international_foot", .mk tPlural [] c!"international_feet"] [], .mk tName [.mk tSingular [] c!"foot", .mk tPlural [] c!"feet"] [], .mk tSymbol [] c!"ft"] [], .mk tDefinition [] []] [],
  .mk tUnit [.mk tDef [] c!"3 international_feet", .mk tAliases [.mk tName [.mk tSingular [] c!"international_yard"] [], .mk tName [.mk tSingular [] c!"yard"] [], .mk tSymbol [] c!"yd"] [], .mk tDefinition [] []] [],
  .mk tUnit [.mk tDef [] c!"5280 international_feet", .mk tAliases [.mk tName [.mk tSingular [] c!"international_mile"] [], .mk tName [.mk tSingular [] c!"mile"] [], .mk tSymbol [] c!"mi"] [], .mk tDefinition [] []] [],
  .mk tUnit [.mk tDef [] c!"inch/72", .mk tAliases [.mk tName [.mk tSingular [] c!"big_point"] []] [], .mk tDefinition [] []] [],
  .mk tUnit [.mk tDef [] c!"inch/3", .mk tAliases [.mk tName [.mk tSingular [] c!"barleycorn"] []] [], .mk tDefinition [] []] [],
  .mk tUnit [.mk tDef [] c!"191.835 foot", .mk tAliases [.mk tName [.mk tSingular [] c!"arpentlin"] []] [], .mk tDefinition [] []] [],
  .mk tUnit [.mk tComment [] [], .mk tDef [] c!"rotation/second", .mk tAliases [.mk tName [.mk tSingular [] c!"rotation_per_second", .mk tPlural [] c!"rotations_per_second"] [], .mk tSymbol [] c!"rps", .mk tSymbol [] c!"cps"] [], .mk tDefinition [] []] [],
  .mk tUnit [.mk tComment [] [], .mk tDef [] c!"rotation/minute", .mk tAliases [.mk tSymbol [] c!"rpm"] [], .mk tDefinition [] []] [],
  .mk tUnit [.mk tDef [] c!"1.111111e-7 kg/m", .mk tAliases [.mk tName [.mk tSingular [] c!"denier"] []] [], .mk tDefinition [] []] [],
  .mk tUnit [.mk tComment [] [], .mk tDef [] c!"1e-6 kg/m", .mk tAliases [.mk tName [.mk tSingular [] c!"tex"] []] [], .mk tDefinition [] []] [],
  .mk tUnit [.mk tDef [] c!"5.72135e-11 kg/(Pa.s.m^2)", .mk tAliases [.mk tName [.mk tSingular [] c!"perm_0C", .mk tPlural [] c!"perms_0C"] []] [], .mk tDefinition [] []] [],
  .mk tUnit [.mk tDef [] c!"5.74525e-11 kg/(Pa.s.m^2)", .mk tAliases [.mk tName [.mk tSingular [] c!"perm_23C", .mk tPlural [] c!"perms_23C"] []] [], .mk tDefinition [] []] [],
  .mk tUnit [.mk tDef [] c!"5.067075e-10 m^2", .mk tAliases [.mk tName [.mk tSingular [] c!"circular_mil"] []] [], .mk tDefinition [] []] [],
  .mk tUnit [.mk tComment [] [], .mk tDef [] c!"9.869233e-13 m^2", .mk tAliases [.mk tName [.mk tSingular [] c!"darcy"] []] [], .mk tDefinition [] []] [],
  .mk tUnit [.mk tComment [] [], .mk tDef [] c!"160 rod^2", .mk tAliases [.mk tName [.mk tSingular [] c!"acre"] []] [], .mk tDefinition [] []] [],
  .mk tUnit [.mk tComment [] [], .mk tDef [] c!"1.233489e3 m^3", .mk tAliases [.mk tName [.mk tSingular [] c!"acre_foot", .mk tPlural [] c!"acre_feet"] []] [], .mk tDefinition [] []] [],
  .mk tUnit [.mk tDef [] c!"2.359737e-3 m^3", .mk tAliases [.mk tName [.mk tSingular [] c!"board_foot", .mk tPlural [] c!"board_feet"] []] [], .mk tDefinition [] []] [],
  .mk tUnit [.mk tDef [] c!"3.523907e-2 m^3", .mk tAliases [.mk tName [.mk tSingular [] c!"bushel"] [], .mk tSymbol [] c!"bu"] [], .mk tDefinition [] []] [],
  .mk tUnit [.mk tComment [] [], .mk tDef [] c!"bushel/4", .mk tAliases [.mk tName [.mk tSingular [] c!"peck"] [], .mk tSymbol [] c!"pk"] [], .mk tDefinition [] []] [],
  .mk tUnit [.mk tComment [] [], .mk tDef [] c!"4.546090e-3 m^3", .mk tAliases [.mk tName [.mk tSingular [] c!"Canadian_liquid_gallon"] []] [], .mk tDefinition [] []] [],
  .mk tUnit [.mk tDef [] c!"4.404884e-3 m^3", .mk tAliases [.mk tName [.mk tSingular [] c!"US_dry_gallon"] []] [], .mk tDefinition [] []] [],
  .mk tUnit [.mk tComment [] [], .mk tDef [] c!"cm^3", .mk tAliases [.mk tSymbol [] c!"cc"] [], .mk tDefinition [] []] [],
  .mk tUnit [.mk tComment [] [], .mk tDef [] c!"1 m^3", .mk tAliases [.mk tName [.mk tSingular [] c!"stere"] []] [], .mk tDefinition [] []] [],
  .mk tUnit [.mk tDef [] c!"2.831685 m^3", .mk tAliases [.mk tName [.mk tSingular [] c!"register_ton"] []] [], .mk tDefinition [] []] [],
  .mk tUnit [.mk tComment [] [], .mk tDef [] c!"US_dry_gallon/4", .mk tAliases [.mk tName [.mk tSingular [] c!"US_dry_quart"] [], .mk tName [.mk tSingular [] c!"dry_quart"] []] [], .mk tDefinition [] []] [],
  .mk tUnit [.mk tComment [] [], .mk tDef [] c!"US_dry_gallon/8", .mk tAliases [.mk tName [.mk tSingular [] c!"US_dry_pint"] [], .mk tName [.mk tSingular [] c!"dry_pint"] []] [], .mk tDefinition [] []] [],
  .mk tUnit [.mk tDef [] c!"3.785412e-3 m^3", .mk tAliases [.mk tName [.mk tSingular [] c!"US_liquid_gallon"] [], .mk tName [.mk tSingular [] c!"liquid_gallon"] [], .mk tName [.mk tSingular [] c!"gallon"] []] [], .mk tDefinition [] []] [],
  .mk tUnit [.mk tComment [] [], .mk tDef [] c!"42 US_liquid_gallon", .mk tAliases [.mk tName [.mk tSingular [] c!"barrel"] [], .mk tSymbol [] c!"bbl"] [], .mk tDefinition [] []] [],
  .mk tUnit [.mk tComment [] [], .mk tDef [] c!"barrel/4", .mk tAliases [.mk tName [.mk tSingular [] c!"firkin"] []] [], .mk tDefinition [] []] [],
  .mk tUnit [.mk tComment [] [], .mk tDef [] c!"US_liquid_gallon/4", .mk tAliases [.mk tName [.mk tSingular [] c!"US_liquid_quart"] [], .mk tName [.mk tSingular [] c!"liquid_quart"] [], .mk tName [.mk tSingular [] c!"quart"] []] [], .mk tDefinition [] []] [],
  .mk tUnit [.mk tComment [] [], .mk tDef [] c!"US_liquid_gallon/8", .mk tAliases [.mk tName [.mk tSingular [] c!"US_liquid_pint"] [], .mk tName [.mk tSingular [] c!"liquid_pint"] [], .mk tName [.mk tSingular [] c!"pint"] [], .mk tSymbol [] c!"pt"] [], .mk tDefinition [] []] [],
  .mk tUnit [.mk tComment [] [], .mk tDef [] c!"US_liquid_gallon/16", .mk tAliases [.mk tName [.mk tSingular [] c!"US_liquid_cup"] [], .mk tName [.mk tSingular [] c!"liquid_cup"] [], .mk tName [.mk tSingular [] c!"cup"] []] [], .mk tDefinition [] []] []
]

/-- `udunits2_combined.xml`, children 160–199 of `unit-system` -/
def part4 : List Tag := [
  .mk tUnit [.mk tComment [] [], .mk tDef [] c!"US_liquid_gallon/32", .mk tAliases [.mk tName [.mk tSingular [] c!"US_liquid_gill"] [], .mk tName [.mk tSingular [] c!"liquid_gill"] [], .mk tName [.mk tSingular [] c!"gill"] []] [], .mk tDefinition [] []] [],
  .mk tUnit [.mk tComment [] [], .mk tDef [] c!"US_liquid_gallon/128", .mk tAliases [.mk tName [.mk tSingular [] c!"US_fluid_ounce"] [], .mk tName [.mk tSingular [] c!"US_liquid_ounce"] [], .mk tName [.mk tSingular [] c!"fluid_ounce"] [], .mk tName [.mk tSingular [] c!"liquid_ounce"] [], .mk tSymbol [] c!"oz", .mk tSymbol [] c!"floz"] [], .mk tDefinition [] []] [],
  .mk tUnit [.mk tComment [] [], .mk tDef [] c!"US_fluid_ounce/2", .mk tAliases [.mk tName [.mk tSingular [] c!"tablespoon"] [], .mk tSymbol [] c!"Tbl", .mk tSymbol [] c!"Tbsp", .mk tSymbol [] c!"tbsp", .mk tSymbol [] c!"Tblsp", .mk tSymbol [] c!"tblsp"] [], .mk tDefinition [] []] [],
  .mk tUnit [.mk tComment [] [], .mk tDef [] c!"US_fluid_ounce/8", .mk tAliases [.mk tName [.mk tSingular [] c!"fluid_dram"] [], .mk tSymbol [] c!"fldr"] [], .mk tDefinition [] []] [],
  .mk tUnit [.mk tComment [] [], .mk tDef [] c!"tablespoon/3", .mk tAliases [.mk tName [.mk tSingular [] c!"teaspoon"] [], .mk tSymbol [] c!"tsp"] [], .mk tDefinition [] []] [],
  .mk tUnit [.mk tComment [] [], .mk tDef [] c!"4.546090e-3 m^3", .mk tAliases [.mk tName [.mk tSingular [] c!"UK_liquid_gallon"] []] [], .mk tDefinition [] []] [],
  .mk tUnit [.mk tComment [] [], .mk tDef [] c!"UK_liquid_gallon/4", .mk tAliases [.mk tName [.mk tSingular [] c!"UK_liquid_quart"] []] [], .mk tDefinition [] []] [],
  .mk tUnit [.mk tComment [] [], .mk tDef [] c!"UK_liquid_gallon/8", .mk tAliases [.mk tName [.mk tSingular [] c!"UK_liquid_pint"] []] [], .mk tDefinition [] []] [],
  .mk tUnit [.mk tComment [] [], .mk tDef [] c!"UK_liquid_gallon/16", .mk tAliases [.mk tName [.mk tSingular [] c!"UK_liquid_cup"] []] [], .mk tDefinition [] []] [],
  .mk tUnit [.mk tComment [] [], .mk tDef [] c!"UK_liquid_gallon/32", .mk tAliases [.mk tName [.mk tSingular [] c!"UK_liquid_gill"] []] [], .mk tDefinition [] []] [],
  .mk tUnit [.mk tComment [] [], .mk tDef [] c!"UK_liquid_gallon/160", .mk tAliases [.mk tName [.mk tSingular [] c!"UK_fluid_ounce"] [], .mk tName [.mk tSingular [] c!"UK_liquid_ounce"] []] [], .mk tDefinition [] []] [],
  .mk tUnit [.mk tDef [] c!"lg(re (1e-6 m)^3)", .mk tAliases [.mk tSymbol [] c!"BZ"] [], .mk tDefinition [] []] [],
  .mk tUnit [.mk tDef [] c!"1e-8 s", .mk tAliases [.mk tName [.mk tSingular [] c!"shake"] []] [], .mk tDefinition [] []] [],
  .mk tUnit [.mk tDef [] c!"8.616409e4 s", .mk tAliases [.mk tName [.mk tSingular [] c!"sidereal_day"] []] [], .mk tDefinition [] []] [],
  .mk tUnit [.mk tDef [] c!"3.590170e3 s", .mk tAliases [.mk tName [.mk tSingular [] c!"sidereal_hour"] []] [], .mk tDefinition [] []] [],
  .mk tUnit [.mk tDef [] c!"5.983617e1 s", .mk tAliases [.mk tName [.mk tSingular [] c!"sidereal_minute"] []] [], .mk tDefinition [] []] [],
  .mk tUnit [.mk tDef [] c!"0.9972696 s", .mk tAliases [.mk tName [.mk tSingular [] c!"sidereal_second"] []] [], .mk tDefinition [] []] [],
  .mk tUnit [.mk tDef [] c!"3.155815e7 s", .mk tAliases [.mk tName [.mk tSingular [] c!"sidereal_year"] []] [], .mk tDefinition [] []] [],
  .mk tUnit [.mk tDef [] c!"3.15569259747e7 s", .mk tAliases [.mk tName [.mk tSingular [] c!"tropical_year"] [], .mk tName [.mk tSingular [] c!"year"] [], .mk tSymbol [] c!"yr"] [], .mk tDefinition [] []] [],
  .mk tUnit [.mk tDef [] c!"29.530589 day", .mk tAliases [.mk tName [.mk tSingular [] c!"lunar_month"] []] [], .mk tDefinition [] []] [],
  .mk tUnit [.mk tDef [] c!"365 day", .mk tAliases [.mk tName [.mk tSingular [] c!"common_year"] []] [], .mk tDefinition [] []] [],
  .mk tUnit [.mk tDef [] c!"366 day", .mk tAliases [.mk tName [.mk tSingular [] c!"leap_year"] []] [], .mk tDefinition [] []] [],
  .mk tUnit [.mk tDef [] c!"365.25 day", .mk tAliases [.mk tName [.mk tSingular [] c!"Julian_year"] []] [], .mk tDefinition [] []] [],
  .mk tUnit [.mk tDef [] c!"365.2425 day", .mk tAliases [.mk tName [.mk tSingular [] c!"Gregorian_year"] []] [], .mk tDefinition [] []] [],
  .mk tUnit [.mk tDef [] c!"27.321661 day", .mk tAliases [.mk tName [.mk tSingular [] c!"sidereal_month"] []] [], .mk tDefinition [] []] [],
  .mk tUnit [.mk tDef [] c!"27.321582 day", .mk tAliases [.mk tName [.mk tSingular [] c!"tropical_month"] []] [], .mk tDefinition [] []] [],
  .mk tUnit [.mk tDef [] c!"14 day", .mk tAliases [.mk tName [.mk tSingular [] c!"fortnight"] []] [], .mk tDefinition [] []] [],
  .mk tUnit [.mk tDef [] c!"7 day", .mk tAliases [.mk tName [.mk tSingular [] c!"week"] []] [], .mk tDefinition [] []] [],
  .mk tUnit [.mk tComment [] [], .mk tDef [] c!"0.01 s", .mk tAliases [.mk tName [.mk tSingular [] c!"jiffy"] []] [], .mk tDefinition [] []] [],
  .mk tUnit [.mk tDef [] c!"1e9 year", .mk tAliases [.mk tName [.mk tSingular [] c!"eon"] []] [], .mk tDefinition [] []] [],
  .mk tUnit [.mk tDef [] c!"year/12", .mk tAliases [.mk tName [.mk tSingular [] c!"month"] []] [], .mk tDefinition [] []] [],
  .mk tUnit [.mk tComment [] [], .mk tDef [] c!"1e6 m^3/s", .mk tAliases [.mk tName [.mk tSingular [] c!"sverdrup"] []] [], .mk tDefinition [] []] [],
  .mk tUnit [.mk tComment [] [], .mk tDef [] c!"9.806650 m/s^2", .mk tAliases [.mk tName [.mk tSingular [] c!"standard_free_fall"] []] [], .mk tDefinition [] []] [],
  .mk tUnit [.mk tComment [] [], .mk tDef [] c!"standard_free_fall", .mk tAliases [.mk tName [.mk tSingular [] c!"gravity"] []] [], .mk tDefinition [] []] [],
  .mk tUnit [.mk tComment [] [], .mk tDef [] c!"gravity 1000 kg/m^3", .mk tAliases [.mk tName [.mk tSingular [] c!"conventional_water"] [], .mk tName [.mk tSingular [] c!"water"] [], .mk tSymbol [] c!"H2O", .mk tSymbol [] c!"h2o"] [], .mk tDefinition [] []] [],
  .mk tUnit [.mk tDef [] c!"gravity 999.972 kg/m^3", .mk tAliases [.mk tName [.mk tSingular [] c!"water_4C", .mk tPlural [] c!"waters_4C"] [], .mk tName [.mk tSingular [] c!"water_39F", .mk tPlural [] c!"waters_39F"] []] [], .mk tDefinition [] []] [],
  .mk tUnit [.mk tDef [] c!"gravity 999.001 kg/m^3", .mk tAliases [.mk tName [.mk tSingular [] c!"water_60F", .mk tPlural [] c!"waters_60F"] []] [], .mk tDefinition [] []] [],
  .mk tUnit [.mk tDef [] c!"gravity 13595.10 kg/m^3", .mk tAliases [.mk tName [.mk tSingular [] c!"mercury_0C", .mk tPlural [] c!"mercuries_0C"] [], .mk tName [.mk tSingular [] c!"mercury_32F", .mk tPlural [] c!"mercuries_32F"] [], .mk tName [.mk tSingular [] c!"conventional_mercury", .mk tPlural [] c!"conventional_mercuries"] [], .mk tSymbol [] c!"Hg"] [], .mk tDefinition [] []] [],
  .mk tUnit [.mk tDef [] c!"gravity 13556.8 kg/m^3", .mk tAliases [.mk tName [.mk tSingular [] c!"mercury_60F", .mk tPlural [] c!"mercuries_60F"] []] [], .mk tDefinition [] []] [],
  .mk tUnit [.mk tDef [] c!"standard_free_fall", .mk tAliases [.mk tName [.mk tSingular [] c!"force"] []] [], .mk tDefinition [] []] []
]

/-- `udunits2_combined.xml`, children 200–239 of `unit-system` -/
def part5 : List Tag := [
  .mk tUnit [.mk tComment [] [], .mk tDef [] c!"1e-5 N", .mk tAliases [.mk tName [.mk tSingular [] c!"dyne"] []] [], .mk tDefinition [] []] [],
  .mk tUnit [.mk tComment [] [], .mk tDef [] c!"9.806650e-3 N", .mk tAliases [.mk tName [.mk tSingular [] c!"pond"] []] [], .mk tDefinition [] []] [],
  .mk tUnit [.mk tComment [] [], .mk tDef [] c!"9.806650 N", .mk tAliases [.mk tName [.mk tSingular [] c!"force_kilogram"] [], .mk tName [.mk tSingular [] c!"kilogram_force", .mk tPlural [] c!"kilograms_force"] [], .mk tSymbol [] c!"kgf"] [], .mk tDefinition [] []] [],
  .mk tUnit [.mk tComment [] [], .mk tDef [] c!"2.780139e-1 N", .mk tAliases [.mk tName [.mk tSingular [] c!"force_ounce"] [], .mk tName [.mk tSingular [] c!"ounce_force", .mk tPlural [] c!"ounces_force"] [], .mk tSymbol [] c!"ozf"] [], .mk tDefinition [] []] [],
  .mk tUnit [.mk tComment [] [], .mk tDef [] c!"4.4482216152605 N", .mk tAliases [.mk tName [.mk tSingular [] c!"force_pound"] [], .mk tName [.mk tSingular [] c!"pound_force", .mk tPlural [] c!"pounds_force"] [], .mk tSymbol [] c!"lbf"] [], .mk tDefinition [] []] [],
  .mk tUnit [.mk tComment [] [], .mk tDef [] c!"1.382550e-1 N", .mk tAliases [.mk tName [.mk tSingular [] c!"poundal"] []] [], .mk tDefinition [] []] [],
  .mk tUnit [.mk tComment [] [], .mk tDef [] c!"gram force", .mk tAliases [.mk tName [.mk tSingular [] c!"gram_force", .mk tPlural [] c!"grams_force"] [], .mk tName [.mk tSingular [] c!"force_gram"] [], .mk tSymbol [] c!"gf"] [], .mk tDefinition [] []] [],
  .mk tUnit [.mk tComment [] [], .mk tDef [] c!"2000 force_pound", .mk tAliases [.mk tName [.mk tSingular [] c!"force_ton"] [], .mk tName [.mk tSingular [] c!"ton_force", .mk tPlural [] c!"tons_force"] []] [], .mk tDefinition [] []] [],
  .mk tUnit [.mk tComment [] [], .mk tDef [] c!"1000 lbf", .mk tAliases [.mk tName [.mk tSingular [] c!"kip"] []] [], .mk tDefinition [] []] [],
  .mk tUnit [.mk tComment [] [], .mk tDef [] c!"1.01325e5 Pa", .mk tAliases [.mk tName [.mk tSingular [] c!"standard_atmosphere"] [], .mk tName [.mk tSingular [] c!"atmosphere"] [], .mk tSymbol [] c!"atm"] [], .mk tDefinition [] []] [],
  .mk tUnit [.mk tComment [] [], .mk tDef [] c!"1 kg gravity/cm2", .mk tAliases [.mk tName [.mk tSingular [] c!"technical_atmosphere"] [], .mk tSymbol [] c!"at"] [], .mk tDefinition [] []] [],
  .mk tUnit [.mk tDef [] c!"cm H2O", .mk tAliases [.mk tSymbol [] c!"cm_H2O", .mk tSymbol [] c!"cmH2O"] [], .mk tDefinition [] []] [],
  .mk tUnit [.mk tComment [] [], .mk tDef [] c!"inch water_39F", .mk tAliases [.mk tName [.mk tSingular [] c!"inch_H2O_39F", .mk tPlural [] c!"inches_H2O_39F"] []] [], .mk tDefinition [] []] [],
  .mk tUnit [.mk tComment [] [], .mk tDef [] c!"inch water_60F", .mk tAliases [.mk tName [.mk tSingular [] c!"inch_H2O_60F", .mk tPlural [] c!"inches_H2O_60F"] []] [], .mk tDefinition [] []] [],
  .mk tUnit [.mk tDef [] c!"foot water", .mk tAliases [.mk tName [.mk tSingular [] c!"foot_water", .mk tPlural [] c!"feet_water"] [], .mk tName [.mk tSingular [] c!"foot_H2O", .mk tPlural [] c!"feet_H2O"] [], .mk tName [.mk tSingular [] c!"footH2O", .mk tPlural [] c!"feetH2O"] [], .mk tSymbol [] c!"ftH2O", .mk tSymbol [] c!"fth2o"] [], .mk tDefinition [] []] [],
  .mk tUnit [.mk tDef [] c!"cm Hg", .mk tAliases [.mk tSymbol [] c!"cm_Hg", .mk tSymbol [] c!"cmHg"] [], .mk tDefinition [] []] [],
  .mk tUnit [.mk tComment [] [], .mk tDef [] c!"mm mercury_0C", .mk tAliases [.mk tName [.mk tSingular [] c!"millimeter_Hg_0C", .mk tPlural [] c!"millimeters_Hg_0C"] []] [], .mk tDefinition [] []] [],
  .mk tUnit [.mk tComment [] [], .mk tDef [] c!"inch mercury_32F", .mk tAliases [.mk tName [.mk tSingular [] c!"inch_Hg_32F", .mk tPlural [] c!"inches_Hg_32F"] []] [], .mk tDefinition [] []] [],
  .mk tUnit [.mk tComment [] [], .mk tDef [] c!"inch mercury_60F", .mk tAliases [.mk tName [.mk tSingular [] c!"inch_Hg_60F", .mk tPlural [] c!"inches_Hg_60F"] []] [], .mk tDefinition [] []] [],
  .mk tUnit [.mk tDef [] c!"mm Hg", .mk tAliases [.mk tName [.mk tSingular [] c!"millimeter_Hg", .mk tPlural [] c!"millimeters_Hg"] [], .mk tName [.mk tSingular [] c!"torr"] [], .mk tSymbol [] c!"mm_Hg", .mk tSymbol [] c!"mm_hg", .mk tSymbol [] c!"mmHg", .mk tSymbol [] c!"mmhg"] [], .mk tDefinition [] []] [],
  .mk tUnit [.mk tDef [] c!"inch Hg", .mk tAliases [.mk tName [.mk tSingular [] c!"inch_Hg", .mk tPlural [] c!"inches_Hg"] [], .mk tSymbol [] c!"in_Hg", .mk tSymbol [] c!"inHg"] [], .mk tDefinition [] []] [],
  .mk tUnit [.mk tComment [] [], .mk tDef [] c!"1 pound gravity/in^2", .mk tAliases [.mk tSymbol [] c!"psi"] [], .mk tDefinition [] []] [],
  .mk tUnit [.mk tComment [] [], .mk tDef [] c!"kip/in^2", .mk tAliases [.mk tSymbol [] c!"ksi"] [], .mk tDefinition [] []] [],
  .mk tUnit [.mk tComment [] [], .mk tDef [] c!"0.1 N/m^2", .mk tAliases [.mk tName [.mk tSingular [] c!"barie"] [], .mk tName [.mk tSingular [] c!"barye"] []] [], .mk tDefinition [] []] [],
  .mk tUnit [.mk tComment [] [], .mk tDef [] c!"lg(re 20e-6 Pa)", .mk tAliases [.mk tSymbol [] c!"B_SPL"] [], .mk tDefinition [] []] [],
  .mk tUnit [.mk tComment [] [], .mk tDef [] c!"1e-1 Pa.s", .mk tAliases [.mk tName [.mk tSingular [] c!"poise"] []] [], .mk tDefinition [] []] [],
  .mk tUnit [.mk tComment [] [], .mk tDef [] c!"1e-4 m^2/s", .mk tAliases [.mk tName [.mk tSingular [] c!"stokes"] [], .mk tSymbol [] c!"St"] [], .mk tDefinition [] []] [],
  .mk tUnit [.mk tComment [] [], .mk tDef [] c!"10/(Pa.s)", .mk tAliases [.mk tName [.mk tSingular [] c!"rhe"] []] [], .mk tDefinition [] []] [],
  .mk tUnit [.mk tComment [] [], .mk tDef [] c!"1e-7 J", .mk tAliases [.mk tName [.mk tSingular [] c!"erg"] []] [], .mk tDefinition [] []] [],
  .mk tUnit [.mk tComment [] [], .mk tDef [] c!"1.05505585262e3 J", .mk tAliases [.mk tName [.mk tSingular [] c!"IT_Btu", .mk tPlural [] c!"IT_Btus"] [], .mk tName [.mk tSingular [] c!"Btu", .mk tPlural [] c!"Btus"] []] [], .mk tDefinition [] []] [],
  .mk tUnit [.mk tComment [] [], .mk tDef [] c!"1.05506e8 J", .mk tAliases [.mk tName [.mk tSingular [] c!"EC_therm"] []] [], .mk tDefinition [] []] [],
  .mk tUnit [.mk tComment [] [], .mk tDef [] c!"4.184000 J", .mk tAliases [.mk tName [.mk tSingular [] c!"thermochemical_calorie"] []] [], .mk tDefinition [] []] [],
  .mk tUnit [.mk tComment [] [], .mk tDef [] c!"4.1868 J", .mk tAliases [.mk tName [.mk tSingular [] c!"IT_calorie"] [], .mk tName [.mk tSingular [] c!"calorie"] [], .mk tSymbol [] c!"cal"] [], .mk tDefinition [] []] [],
  .mk tUnit [.mk tComment [] [], .mk tDef [] c!"4.184 MJ/kg", .mk tAliases [.mk tName [.mk tSingular [] c!"TNT", .mk tNoplural [] []] []] [], .mk tDefinition [] []] [],
  .mk tUnit [.mk tComment [] [], .mk tDef [] c!"4.184e9 J", .mk tAliases [.mk tName [.mk tSingular [] c!"ton_TNT", .mk tPlural [] c!"tons_TNT"] []] [], .mk tDefinition [] []] [],
  .mk tUnit [.mk tComment [] [], .mk tDef [] c!"1.054804e8 J", .mk tAliases [.mk tName [.mk tSingular [] c!"US_therm"] [], .mk tName [.mk tSingular [] c!"therm"] [], .mk tSymbol [] c!"thm"] [], .mk tDefinition [] []] [],
  .mk tUnit [.mk tComment [] [], .mk tDef [] c!"watt.hour", .mk tAliases [.mk tName [.mk tSingular [] c!"watthour"] []] [], .mk tDefinition [] []] [],
  .mk tUnit [.mk tComment [] [], .mk tDef [] c!"1e9 eV", .mk tAliases [.mk tSymbol [] c!"bev"] [], .mk tDefinition [] []] [],
  .mk tUnit [.mk tComment [] [], .mk tDef [] c!"V.A", .mk tAliases [.mk tName [.mk tSingular [] c!"voltampere"] [], .mk tSymbol [] c!"VA"] [], .mk tDefinition [] []] [],
  .mk tUnit [.mk tDef [] c!"9.80950e3 W", .mk tAliases [.mk tName [.mk tSingular [] c!"boiler_horsepower"] []] [], .mk tDefinition [] []] []
]

/-- `udunits2_combined.xml`, children 240–279 of `unit-system` -/
def part6 : List Tag := [
  .mk tUnit [.mk tComment [] [], .mk tDef [] c!"7.456999e2 W", .mk tAliases [.mk tName [.mk tSingular [] c!"shaft_horsepower"] [], .mk tName [.mk tSingular [] c!"horsepower"] [], .mk tSymbol [] c!"hp"] [], .mk tDefinition [] []] [],
  .mk tUnit [.mk tDef [] c!"7.35499e2 W", .mk tAliases [.mk tName [.mk tSingular [] c!"metric_horsepower"] []] [], .mk tDefinition [] []] [],
  .mk tUnit [.mk tComment [] [], .mk tDef [] c!"7.460000e2 W", .mk tAliases [.mk tName [.mk tSingular [] c!"electric_horsepower"] []] [], .mk tDefinition [] []] [],
  .mk tUnit [.mk tDef [] c!"7.46043e2 W", .mk tAliases [.mk tName [.mk tSingular [] c!"water_horsepower"] []] [], .mk tDefinition [] []] [],
  .mk tUnit [.mk tDef [] c!"7.4570e2 W", .mk tAliases [.mk tName [.mk tSingular [] c!"UK_horsepower"] []] [], .mk tDefinition [] []] [],
  .mk tUnit [.mk tDef [] c!"12000 Btu/hr", .mk tAliases [.mk tName [.mk tSingular [] c!"refrigeration_ton"] [], .mk tName [.mk tSingular [] c!"ton_of_refrigeration", .mk tPlural [] c!"tons_of_refrigeration"] []] [], .mk tDefinition [] []] [],
  .mk tUnit [.mk tDef [] c!"lg(re 1 W)", .mk tAliases [.mk tSymbol [] c!"BW"] [], .mk tDefinition [] []] [],
  .mk tUnit [.mk tDef [] c!"lg(re 1 mW)", .mk tAliases [.mk tSymbol [] c!"Bm"] [], .mk tDefinition [] []] [],
  .mk tUnit [.mk tDef [] c!"1.55e-1 K.m^2/W", .mk tAliases [.mk tName [.mk tSingular [] c!"clo"] []] [], .mk tDefinition [] []] [],
  .mk tUnit [.mk tDef [] c!"10 A", .mk tAliases [.mk tName [.mk tSingular [] c!"abampere"] []] [], .mk tDefinition [] []] [],
  .mk tUnit [.mk tDef [] c!"7.957747e-1 A", .mk tAliases [.mk tName [.mk tSingular [] c!"gilbert"] []] [], .mk tDefinition [] []] [],
  .mk tUnit [.mk tDef [] c!"3.335640e-10 A", .mk tAliases [.mk tName [.mk tSingular [] c!"statampere"] []] [], .mk tDefinition [] []] [],
  .mk tUnit [.mk tDef [] c!"10 A", .mk tAliases [.mk tName [.mk tSingular [] c!"biot"] []] [], .mk tDefinition [] []] [],
  .mk tUnit [.mk tComment [] [], .mk tDef [] c!"1e9 F", .mk tAliases [.mk tName [.mk tSingular [] c!"abfarad"] []] [], .mk tDefinition [] []] [],
  .mk tUnit [.mk tComment [] [], .mk tDef [] c!"1e-9 H", .mk tAliases [.mk tName [.mk tSingular [] c!"abhenry"] []] [], .mk tDefinition [] []] [],
  .mk tUnit [.mk tComment [] [], .mk tDef [] c!"1e9 S", .mk tAliases [.mk tName [.mk tSingular [] c!"abmho"] []] [], .mk tDefinition [] []] [],
  .mk tUnit [.mk tComment [] [], .mk tDef [] c!"1e-9 ohm", .mk tAliases [.mk tName [.mk tSingular [] c!"abohm"] []] [], .mk tDefinition [] []] [],
  .mk tUnit [.mk tComment [] [], .mk tDef [] c!"1e-8 V", .mk tAliases [.mk tName [.mk tSingular [] c!"abvolt"] []] [], .mk tDefinition [] []] [],
  .mk tUnit [.mk tDef [] c!"1.602176487e-19 C", .mk tAliases [.mk tSymbol [] c!"e"] [], .mk tDefinition [] []] [],
  .mk tUnit [.mk tDef [] c!"9.64957e4 C", .mk tAliases [.mk tName [.mk tSingular [] c!"chemical_faraday"] []] [], .mk tDefinition [] []] [],
  .mk tUnit [.mk tDef [] c!"9.65219e4 C", .mk tAliases [.mk tName [.mk tSingular [] c!"physical_faraday"] []] [], .mk tDefinition [] []] [],
  .mk tUnit [.mk tDef [] c!"9.648531e4 C", .mk tAliases [.mk tName [.mk tSingular [] c!"C12_faraday"] [], .mk tName [.mk tSingular [] c!"faraday"] []] [], .mk tDefinition [] []] [],
  .mk tUnit [.mk tComment [] [], .mk tDef [] c!"1e-9 T", .mk tAliases [.mk tName [.mk tSingular [] c!"gamma"] []] [], .mk tDefinition [] []] [],
  .mk tUnit [.mk tComment [] [], .mk tDef [] c!"1e-4 T", .mk tAliases [.mk tName [.mk tSingular [] c!"gauss"] []] [], .mk tDefinition [] []] [],
  .mk tUnit [.mk tComment [] [], .mk tDef [] c!"1e-8 Wb", .mk tAliases [.mk tName [.mk tSingular [] c!"maxwell"] []] [], .mk tDefinition [] []] [],
  .mk tUnit [.mk tDef [] c!"7.957747e1 A/m", .mk tAliases [.mk tName [.mk tSingular [] c!"oersted"] [], .mk tSymbol [] c!"Oe"] [], .mk tDefinition [] []] [],
  .mk tUnit [.mk tDef [] c!"3.335640e-10 C", .mk tAliases [.mk tName [.mk tSingular [] c!"statcoulomb"] []] [], .mk tDefinition [] []] [],
  .mk tUnit [.mk tDef [] c!"1.112650e-12 F", .mk tAliases [.mk tName [.mk tSingular [] c!"statfarad"] []] [], .mk tDefinition [] []] [],
  .mk tUnit [.mk tDef [] c!"8.987554e11 H", .mk tAliases [.mk tName [.mk tSingular [] c!"stathenry"] []] [], .mk tDefinition [] []] [],
  .mk tUnit [.mk tDef [] c!"1.112650e-12 S", .mk tAliases [.mk tName [.mk tSingular [] c!"statmho"] []] [], .mk tDefinition [] []] [],
  .mk tUnit [.mk tDef [] c!"8.987554e11 ohm", .mk tAliases [.mk tName [.mk tSingular [] c!"statohm"] []] [], .mk tDefinition [] []] [],
  .mk tUnit [.mk tDef [] c!"2.997925e2 V", .mk tAliases [.mk tName [.mk tSingular [] c!"statvolt"] []] [], .mk tDefinition [] []] [],
  .mk tUnit [.mk tDef [] c!"1.256637e-7 Wb", .mk tAliases [.mk tName [.mk tSingular [] c!"unit_pole"] []] [], .mk tDefinition [] []] [],
  .mk tUnit [.mk tDef [] c!"lg(re 1 V)", .mk tAliases [.mk tSymbol [] c!"BV"] [], .mk tDefinition [] []] [],
  .mk tUnit [.mk tComment [] [], .mk tDef [] c!"lg(re 0.775 V)", .mk tAliases [.mk tSymbol [] c!"Bv"] [], .mk tDefinition [] []] [],
  .mk tUnit [.mk tDef [] c!"lg(re 1e-6 V)", .mk tAliases [.mk tSymbol [] c!"BµV"] [], .mk tDefinition [] []] [],
  .mk tUnit [.mk tDef [] c!"K/1.8", .mk tAliases [.mk tSymbol [] c!"°R", .mk tName [.mk tSingular [] c!"degree_rankine", .mk tPlural [] c!"degrees_rankine"] [], .mk tName [.mk tSingular [] c!"degreeR", .mk tPlural [] c!"degreesR"] [], .mk tName [.mk tSingular [] c!"degree_R", .mk tPlural [] c!"degrees_R"] [], .mk tName [.mk tSingular [] c!"degR", .mk tPlural [] c!"degsR"] [], .mk tName [.mk tSingular [] c!"deg_R", .mk tPlural [] c!"degs_R"] []] [], .mk tDefinition [] []] [],
  .mk tUnit [.mk tDef [] c!"°R @ 459.67", .mk tAliases [.mk tSymbol [] c!"°F", .mk tSymbol [] c!"℉", .mk tName [.mk tSingular [] c!"fahrenheit"] [], .mk tName [.mk tSingular [] c!"degree_fahrenheit", .mk tPlural [] c!"degrees_fahrenheit"] [], .mk tName [.mk tSingular [] c!"degreeF", .mk tPlural [] c!"degreesF"] [], .mk tName [.mk tSingular [] c!"degree_F", .mk tPlural [] c!"degrees_F"] [], .mk tName [.mk tSingular [] c!"degF", .mk tPlural [] c!"degsF"] [], .mk tName [.mk tSingular [] c!"deg_F", .mk tPlural [] c!"degs_F"] []] [], .mk tDefinition [] []] [],
  .mk tUnit [.mk tDef [] c!"1.076391e-1 lx", .mk tAliases [.mk tName [.mk tSingular [] c!"footcandle"] []] [], .mk tDefinition [] []] [],
  .mk tUnit [.mk tComment [] [], .mk tDef [] c!"3.426259 cd/m^2", .mk tAliases [.mk tName [.mk tSingular [] c!"footlambert"] []] [], .mk tDefinition [] []] []
]

/-- `udunits2_combined.xml`, children 280–295 of `unit-system` -/
def part7 : List Tag := [
  .mk tUnit [.mk tComment [] [], .mk tDef [] c!"(1e4/pi) cd/m^2", .mk tAliases [.mk tName [.mk tSingular [] c!"lambert"] []] [], .mk tDefinition [] []] [],
  .mk tUnit [.mk tComment [] [], .mk tDef [] c!"1e4 cd/m^2", .mk tAliases [.mk tName [.mk tSingular [] c!"stilb"] [], .mk tSymbol [] c!"sb"] [], .mk tDefinition [] []] [],
  .mk tUnit [.mk tComment [] [], .mk tDef [] c!"1e4 lm/m^2", .mk tAliases [.mk tName [.mk tSingular [] c!"phot"] [], .mk tSymbol [] c!"ph"] [], .mk tDefinition [] []] [],
  .mk tUnit [.mk tComment [] [], .mk tDef [] c!"1 cd/m^2", .mk tAliases [.mk tName [.mk tSingular [] c!"nit"] [], .mk tSymbol [] c!"nt"] [], .mk tDefinition [] []] [],
  .mk tUnit [.mk tComment [] [], .mk tDef [] c!"4.184000e4 J/m^2", .mk tAliases [.mk tName [.mk tSingular [] c!"langley"] []] [], .mk tDefinition [] []] [],
  .mk tUnit [.mk tComment [] [], .mk tDef [] c!"cd/(pi m^2)", .mk tAliases [.mk tName [.mk tSingular [] c!"blondel"] [], .mk tName [.mk tSingular [] c!"apostilb"] []] [], .mk tDefinition [] []] [],
  .mk tUnit [.mk tComment [] [], .mk tDef [] c!"100/m", .mk tAliases [.mk tName [.mk tSingular [] c!"kayser"] []] [], .mk tDefinition [] []] [],
  .mk tUnit [.mk tComment [] [], .mk tDef [] c!"gravity", .mk tAliases [.mk tName [.mk tSingular [] c!"geopotential"] [], .mk tName [.mk tSingular [] c!"dynamic"] [], .mk tSymbol [] c!"gp"] [], .mk tDefinition [] []] [],
  .mk tUnit [.mk tComment [] [], .mk tDef [] c!"2056 hours", .mk tAliases [.mk tName [.mk tSingular [] c!"work_year"] []] [], .mk tDefinition [] []] [],
  .mk tUnit [.mk tComment [] [], .mk tDef [] c!"work_year/12", .mk tAliases [.mk tName [.mk tSingular [] c!"work_month"] []] [], .mk tDefinition [] []] [],
  .mk tUnit [.mk tComment [] [], .mk tDef [] c!"1e-6 m^2 s^-1 K kg^-1", .mk tAliases [.mk tName [.mk tSingular [] c!"potential_vorticity_unit"] [], .mk tSymbol [] c!"PVU"] [], .mk tDefinition [] []] [],
  .mk tUnit [.mk tDef [] c!"1", .mk tAliases [.mk tName [.mk tSingular [] c!"count"] []] [], .mk tDefinition [] []] [],
  .mk tUnit [.mk tDef [] c!"1", .mk tAliases [.mk tName [.mk tSingular [] c!"bit"] []] [], .mk tDefinition [] []] [],
  .mk tUnit [.mk tDef [] c!"8", .mk tAliases [.mk tName [.mk tSingular [] c!"octet"] [], .mk tName [.mk tSingular [] c!"byte"] []] [], .mk tDefinition [] []] [],
  .mk tUnit [.mk tDef [] c!"446.2 micromoles/meter^2", .mk tAliases [.mk tName [.mk tSingular [] c!"dobson"] [], .mk tSymbol [] c!"DU"] [], .mk tDefinition [] []] [],
  .mk tUnit [.mk tDef [] c!"1/avogadro_constant", .mk tName [.mk tSingular [] c!"molecule"] [], .mk tAliases [.mk tName [.mk tSingular [] c!"molec"] [], .mk tName [.mk tSingular [] c!"nucleon"] [], .mk tName [.mk tSingular [] c!"nuc"] []] [], .mk tDefinition [] []] []
]

/-- the whole `unit-system` element of `udunits2_combined.xml` -/
def unitSystem : Tag := .mk c!"unit-system" (part0 ++ part1 ++ part2 ++ part3 ++ part4 ++ part5 ++ part6 ++ part7) []

end Verif.Db
