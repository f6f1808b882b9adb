import Verif.Spec.Registry
import Verif.Model.Parser
/-!
# A small unit system used in the non-vacuity examples

Built only with API calls, with the modelled parser.
-/

namespace Verif.Demo

/-- the real parser; identifier sets iterated in first-occurrence order -/
def env : Env := ⟨parse, id⟩

def named (singular plural : Str) (symbols : List Str) : UnitReference :=
  ⟨some ⟨singular, some plural⟩, symbols, [], []⟩

def metreRef : UnitReference := ⟨some ⟨c!"metre", some c!"metres"⟩, [c!"m"], [⟨c!"meter", some c!"meters"⟩], []⟩
def secondRef : UnitReference := named c!"second" c!"seconds" [c!"s"]
def kelvinRef : UnitReference := named c!"kelvin" c!"kelvins" [c!"K"]
def radianRef : UnitReference := named c!"radian" c!"radians" [c!"rad"]
def minuteRef : UnitReference := named c!"minute" c!"minutes" [c!"min"]
def hourRef : UnitReference := named c!"hour" c!"hours" [c!"h"]
def celsiusRef : UnitReference := named c!"celsius" c!"celsius" [c!"degC"]

def metre : Basis := ⟨c!"metre", false, false, metreRef⟩
def second : Basis := ⟨c!"second", false, true, secondRef⟩
def kelvin : Basis := ⟨c!"kelvin", false, false, kelvinRef⟩
def radian : Basis := ⟨c!"radian", true, false, radianRef⟩

def kilo : Prefix := ⟨c!"kilo", c!"1e3", [c!"k"]⟩
def milli : Prefix := ⟨c!"milli", c!"1e-3", [c!"m"]⟩

/-- `add_unit(basis)` -/
def addBasis (b : Basis) (s : System) : System := (s.addUnit (.unit (.basis b)) false).2
/-- `add_unit(LazilyDefinedUnit(…))` -/
def addLazy (defn : Str) (ref : UnitReference) (s : System) : System :=
  let (id, s) := s.alloc defn ref
  (s.addUnit (.lazy id) false).2

/-- metre, second, kelvin, radian; minute, hour, celsius lazily; kilo and milli -/
def sys : System :=
  ((System.empty.addPrefix kilo).addPrefix milli)
    |> addBasis metre |> addBasis second |> addBasis kelvin |> addBasis radian
    |> addLazy c!"60 s" minuteRef |> addLazy c!"60 min" hourRef |> addLazy c!"K @ 273.15" celsiusRef

theorem addBasis_reachable {s : System} (h : Spec.Reachable env s) (b : Basis) :
    Spec.Reachable env (addBasis b s) :=
  Spec.Reachable.addUnit (.unit (.basis b)) false (by simp) h

theorem addLazy_reachable {s : System} (h : Spec.Reachable env s) (d : Str) (ref : UnitReference) :
    Spec.Reachable env (addLazy d ref s) := by
  refine Spec.Reachable.addUnit (.lazy s.heap.length) false ?_ (Spec.Reachable.newLazy d ref h)
  intro id hid
  cases hid
  simp [System.alloc]

theorem sys_reachable : Spec.Reachable env sys :=
  addLazy_reachable (addLazy_reachable (addLazy_reachable
    (addBasis_reachable (addBasis_reachable (addBasis_reachable (addBasis_reachable
      (.addPrefix milli (.addPrefix kilo .empty)) metre) second) kelvin) radian)
    c!"60 s" minuteRef) c!"60 min" hourRef) c!"K @ 273.15" celsiusRef

end Verif.Demo
