import Verif.Lemmas.ExpandTable
import Verif.Spec.ShippedTable
import Verif.Model.Sympy
import Verif.Props.Shipped
/-!
# The table of shipped units checked against the model, by evaluation in the kernel
-/

namespace Verif
open Spec

/-- the value transformation of a scale -/
def scaleOps : Scale → List TOp
  | .linear => []
  | .offset q => [.sub q]
  | .log10 => [.log (some 10)]
  | .log2 => [.log (some 2)]
  | .ln => [.log none]

/-- powers of a dimensionality agree with the table -/
def dimsMatch (d : Dims) (powers : List (Str × Int)) : Bool :=
  (d.all fun x => decide (x.1.ref ≠ c!"radian") && (((Dict.get x.1.ref powers).getD 0) == x.2)) &&
  (powers.all fun x => decide (x.1 = c!"radian") || (Dims.power x.1 d == x.2))

/-- no shift and no logarithm, computed -/
def Node.noTransformB : Node → Bool
  | .number _ _ | .ident _ | .unhandled _ => true
  | .mul l r | .div l r | .raise l r => l.noTransformB && r.noTransformB
  | .shift _ _ | .log _ _ => false

/-- an expanded unit is what the table says; if it is a multiple of basis units, no shift or logarithm occurs in it -/
def viewMatches (u : ShippedUnit) (v : View) : Bool :=
  match v.dims with
  | none => false
  | some d => dimsMatch d u.powers &&
    (decide (u.scale ≠ .linear) || v.node.noTransformB) &&
    (match v.node.symDef with
    | .error _ => false
    | .ok (t, m) => decide (t = scaleOps u.scale) && m.beq ⟨u.factor, u.powers⟩)

/-- a spelling has the meaning of a row -/
def spellOk (t : Tree Entry) (pres : List (Str × Prefix)) (acc : Tree View) (u : ShippedUnit) (n : Str) : Bool :=
  match viewSpell t pres acc n with
  | none => false
  | some v => viewMatches u v

/-- a row of the table is right -/
def rowOk (t : Tree Entry) (pres : List (Str × Prefix)) (acc : Tree View) (dead : Str → Bool) (u : ShippedUnit) : Bool :=
  u.spellings.all fun n => dead n || spellOk t pres acc u n

namespace Db

/-- the definitions in order of rank -/
def ordered : List (Nat × Str) :=
  let l := ((lazyObjs decls).zip ranks).zipIdx
  [1, 2, 3, 4, 5, 6, 7].flatMap fun r => (l.filter fun x => Nat.beq x.1.2 r).map fun x => (x.2, x.1.1.defn)

/-- everything expanded -/
def views (pf : Str → Py Node) : Tree View := evalIds pf tree pres ordered .leaf

/-- the eight spellings of the torr: its definition `mm Hg` uses `mm`, which the code reads as m² (see C14) -/
def mmHg : List Str :=
  [c!"millimeter_Hg", c!"millimeters_Hg", c!"torr", c!"torrs", c!"mm_Hg", c!"mm_hg", c!"mmHg", c!"mmhg"]

/-- spellings not covered by the table -/
def skipB (n : Str) : Bool := deadB n || (mmHg.map enc).any fun k => Nat.beq k (enc n)

theorem rows_ok : (shipped.all fun u => rowOk tree pres (views parse) skipB u) = true := by decide +kernel

theorem ordered_ok : (ordered.all fun x => ((lazyObjs decls)[x.1]?).any fun o => decide (o.defn = x.2)) = true := by decide +kernel

theorem spellings_registered : (shipped.all fun u => u.spellings.all fun n => (tree.find (enc n)).isSome) = true := by decide +kernel

theorem factors_nonzero : (shipped.all fun u => decide (u.factor ≠ 0)) = true := by decide +kernel

theorem powers_nodup : (shipped.all fun u => decide ((u.powers.map (·.1)).Nodup) && u.powers.all fun x => x.2 != 0) = true := by
  decide +kernel

/-- the spellings of the table -/
def tableKeys : Tree Unit := (shipped.flatMap ShippedUnit.spellings).foldl (fun t n => t.insert (enc n) ()) .leaf

theorem table_covers : ((allClaims (withEntries 0 decls)).all fun x => deadB x.1 || (tableKeys.find (enc x.1)).isSome) = true := by
  decide +kernel

/-- the spellings of the table that the grammar does not read as one identifier -/
def untypeable : List Str :=
  [c!"\u2126", c!"'", c!"\u2032", c!"\"", c!"\u2033", c!"\u212b", c!"\u2103", c!"\u2109", c!"%",
   c!"astronomical_unit_BIPM_2006", c!"astronomical_unit_BIPM_2006s", c!"perm_0C", c!"perms_0C", c!"perm_23C", c!"perms_23C",
   c!"H2O", c!"h2o", c!"water_4C", c!"waters_4C", c!"water_39F", c!"waters_39F", c!"water_60F", c!"waters_60F",
   c!"mercury_0C", c!"mercuries_0C", c!"mercury_32F", c!"mercuries_32F", c!"mercury_60F", c!"mercuries_60F",
   c!"foot_H2O", c!"feet_H2O", c!"footH2O", c!"feetH2O", c!"ftH2O", c!"fth2o", c!"C12_faraday", c!"C12_faradays"]

/-- the text is read as one identifier -/
def isIdentB (p : Py Node) (n : Str) : Bool :=
  match p with
  | .ok (.ident m) => Nat.beq (enc m) (enc n)
  | _ => false

theorem typeable_ok : (shipped.all fun u => u.spellings.all fun n =>
    (isIdentB (parse n) n) == !((untypeable.map enc).any fun k => Nat.beq k (enc n))) = true := by decide +kernel

end Db
end Verif
