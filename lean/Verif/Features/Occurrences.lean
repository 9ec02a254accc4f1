import Verif.Features.Red
import Verif.Features.UnionFind
import Verif.Features.VisibleSpec
/-!
# Occurrences of a variable

Models `find_variable_occurrences` (`src/server/message_handler/common/mod.rs` L11-72, L112-141). The `HashMap` from region
to id is the position in the list of regions: it is only ever extended together with that list (L118-121).
-/
namespace Verif.Features
open Verif Verif.Grammar

/-- `Var::cast` succeeds. -/
def Red.isVar (r : Red) : Bool := r.isNode && r.kind == K.Var

/-- `var_name()` (ast/mod.rs L731-737). -/
def Red.varName (r : Red) : Text := Verif.Features.varName r.text

/-- A scope boundary (common/mod.rs L115-117). -/
def Red.isSub (r : Red) : Bool := r.kind == K.SubSelect

/-- `region_ids.get` (by identity of nodes). -/
def regionId (regions : List Red) (r : Red) : Option Nat := regions.findIdx? (fun x => x.path == r.path)

/-- The loop of `register_regions` (common/mod.rs L114-123). -/
def registerLoop : List Red → List Red → Option Nat → List Red × Option Nat
  | [], regions, innermost => (regions, innermost)
  | b :: bs, regions, innermost =>
    match regionId regions b with
    | some id => registerLoop bs regions (innermost.or (some id))
    | none => registerLoop bs (regions ++ [b]) (innermost.or (some regions.length))

/-- `register_regions` (common/mod.rs L107-126). -/
def registerRegions (node : Red) (regions : List Red) : List Red × Nat :=
  let r := registerLoop (node.ancestors.filter Red.isSub) regions none
  (r.1, r.2.getD 0)

/-- The `map` over the occurrences (common/mod.rs L43-46). -/
def registerAll : List Red → List Red → List Red × List Nat
  | [], regions => (regions, [])
  | v :: vs, regions =>
    let r := registerRegions v regions
    let rest := registerAll vs r.1
    (rest.1, r.2 :: rest.2)

/-- `parent_region_id` (common/mod.rs L129-137). -/
def parentRegionId (regions : List Red) (boundary : Red) : Nat :=
  match (Red.chain boundary.up).find? Red.isSub with
  | some node => (regionId regions node).getD 0
  | none => 0

/-- The unions made (common/mod.rs L50-59). -/
def regionEdges (name : Text) (regions : List Red) : List (Nat × Nat) :=
  regions.zipIdx.filterMap (fun p =>
    if (p.1.kind = K.SelectQuery ∨ p.1.kind = K.SubSelect) ∧ projects p.1.green name = true then
      some (p.2, parentRegionId regions p.1)
    else none)

/-- The final `filter` (common/mod.rs L66-71); `find` updates the structure. -/
def filterComponent (component : Nat) : List Nat → List (Red × Nat) → Option (List Red)
  | _, [] => some []
  | parent, (v, region) :: rest =>
    match ufFind parent region with
    | none => none
    | some (parent, c) =>
      (filterComponent component parent rest).map (fun l => if c = component then v :: l else l)

/-- `ancestors().last()` (common/mod.rs L26-30). -/
def Red.top (r : Red) : Red := (Red.chain r.up).getLastD r

/-- `find_variable_occurrences` (common/mod.rs L24-72). `none` is a panic. -/
def findOccurrences (trigger : Red) : Option (List Red) :=
  let name := trigger.varName
  let root := trigger.top
  let occurrences := root.descendants.filter (fun v => v.isVar && v.varName == name)
  let reg := registerAll occurrences [root]
  let regions := reg.1
  match ufUnions (ufNew regions.length) (regionEdges name regions) with
  | none => none
  | some parent =>
    match occurrences.findIdx? (fun v => v.path == trigger.path) with
    | none => none
    | some index =>
      match reg.2[index]? with
      | none => none
      | some region =>
        match ufFind parent region with
        | none => none
        | some (parent, component) => filterComponent component parent (occurrences.zip reg.2)

/-! ## Specification -/

/-- The scope of an element: the innermost sub-select around it, `none` for the top level. -/
def scopeOf (r : Red) : Option Red := r.ancestors.find? Red.isSub

/-- The scope a sub-select is in. -/
def enclosing (s : Red) : Option Red := (Red.chain s.up).find? Red.isSub

/-- A sub-select that projects the variable shares it with the scope it is in. -/
def Shares (g : Green) (name : Text) (a b : Option Red) : Prop :=
  ∃ s, InTree g s ∧ s.isSub = true ∧ (∃ t, Shows s.green t ∧ Verif.Features.varName t = name) ∧ a = some s ∧ b = enclosing s

open Relation in
/-- Two occurrences denote the same variable: same name, and their scopes are linked through sub-selects that share it. -/
def SameVariable (g : Green) (u v : Red) : Prop :=
  u.varName = v.varName ∧ EqvGen (Shares g v.varName) (scopeOf u) (scopeOf v)

/-- A variable occurrence of the document. -/
def Occurs (g : Green) (v : Red) : Prop := InTree g v ∧ v.isVar = true

end Verif.Features
