import Verif.Py
/-!
# The spellings of the shipped database whose definitions have no decimal numbers

Read off `udunits2_combined.xml`: every number in the unit's definition, and in the definitions of the units it is made of, is
written without a point or an exponent (`60 s`, `1852 m`; not `1e-3 kg`, `0.1 Pa.s`, nor anything with a prefix that stands for a power of ten
written with an exponent).  Scales with an offset or a logarithm are left out.
-/

namespace Verif.Spec

def wholeSpellings : List Str :=
  [c!"meter", c!"meters", c!"metre", c!"metres", c!"m", c!"kilogram", c!"kilograms", c!"kg", c!"second", c!"seconds",
   c!"s", c!"ampere", c!"amperes", c!"A", c!"kelvin", c!"kelvins", c!"K", c!"mole", c!"moles", c!"mol", c!"candela",
   c!"candelas", c!"cd", c!"radian", c!"radians", c!"rad", c!"steradian", c!"steradians", c!"sr", c!"hertz", c!"hertzes",
   c!"Hz", c!"newton", c!"newtons", c!"N", c!"pascal", c!"pascals", c!"Pa", c!"joule", c!"joules", c!"J", c!"watt",
   c!"watts", c!"W", c!"coulomb", c!"coulombs", c!"C", c!"volt", c!"volts", c!"V", c!"farad", c!"farads", c!"F", c!"ohm",
   c!"ohms", c!"\u03a9", c!"\u2126", c!"siemens", c!"siemenses", c!"S", c!"weber", c!"webers", c!"Wb", c!"tesla",
   c!"teslas", c!"T", c!"henry", c!"henrys", c!"H", c!"lumen", c!"lumens", c!"lm", c!"lux", c!"luxes", c!"lx", c!"katal",
   c!"katals", c!"kat", c!"becquerel", c!"becquerels", c!"Bq", c!"gray", c!"grays", c!"Gy", c!"sievert", c!"sieverts",
   c!"Sv", c!"minute", c!"minutes", c!"min", c!"hour", c!"hours", c!"h", c!"hr", c!"day", c!"days", c!"d", c!"metric_ton",
   c!"metric_tons", c!"tonne", c!"tonnes", c!"t", c!"astronomical_unit", c!"astronomical_units", c!"au",
   c!"nautical_mile", c!"nautical_miles", c!"international_knot", c!"international_knots", c!"knot_international",
   c!"knot_internationals", c!"knot", c!"knots", c!"are", c!"ares", c!"a", c!"hectare", c!"hectares", c!"bar", c!"bars",
   c!"sec", c!"secs", c!"amp", c!"amps", c!"degree_kelvin", c!"degrees_kelvin", c!"degree_K", c!"degrees_K", c!"degreeK",
   c!"degreesK", c!"deg_K", c!"degs_K", c!"degK", c!"degsK", c!"\u00b0K", c!"candle", c!"candles", c!"einstein",
   c!"einsteins", c!"baud", c!"bauds", c!"Bd", c!"bps", c!"kt", c!"kts", c!"ppv", c!"nmile", c!"nmiles",
   c!"US_survey_foot", c!"US_survey_feet", c!"US_survey_yard", c!"US_survey_yards", c!"US_survey_mile",
   c!"US_survey_miles", c!"US_statute_mile", c!"US_statute_miles", c!"furlong", c!"furlongs", c!"fathom", c!"fathoms",
   c!"stere", c!"steres", c!"common_year", c!"common_years", c!"leap_year", c!"leap_years", c!"fortnight", c!"fortnights",
   c!"week", c!"weeks", c!"standard_atmosphere", c!"standard_atmospheres", c!"atmosphere", c!"atmospheres", c!"atm",
   c!"rhe", c!"rhes", c!"watthour", c!"watthours", c!"voltampere", c!"voltamperes", c!"VA", c!"abampere", c!"abamperes",
   c!"biot", c!"biots", c!"nit", c!"nits", c!"nt", c!"kayser", c!"kaysers", c!"work_year", c!"work_years", c!"work_month",
   c!"work_months", c!"count", c!"counts", c!"bit", c!"bits", c!"octet", c!"octets", c!"byte", c!"bytes"]

end Verif.Spec
