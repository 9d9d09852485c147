import Verif.Merge.DatasetProps
import Verif.CoordSys.CfProps

/-!
# Merged datasets: cases
-/

namespace Fimex.Merged

open Cdm CoordSys Cf

/-- The coordinate systems of a dataset for the cases. -/
def toySystems (c : CDM Unit String Unit) : List (System String) :=
  match listCF toyLib c with
  | .ok l => l
  | _ => []

/-- A reader for the cases; a value is shown as the unit it is in. -/
def toyReader (c : CDM Unit String Unit) : Reader Unit String Unit String String where
  cdm := c
  systems := toySystems c
  units n := (((c.attrs n).getD []).find? fun a => a.name == "units").elim "" (·.value)
  scaled n u := .ok (List.replicate ((lengthOf c n).getD 0) u)

/-- What is shown of a result: variables with their sources in an overlay, and dimensions. -/
def shown (inner : CDM Unit String Unit) (r : Res (Result Unit String Unit String String)) : Res (List (String × Res Source) × List (String × Nat)) := do
  let r ← r
  .ok (r.cdm.vars.map fun v => (v.name, overlaySource inner r.outer r.cdm v.name), r.cdm.dims.map fun d => (d.name, d.length))

/-- Merging, with the outer dataset on the grid given. -/
def toyMerge (inner outer : CDM Unit String Unit) (keep : Bool) : Res (Result Unit String Unit String String) :=
  merge (toyReader inner) outer (fun _ => .ok (outer, toySystems outer)) keep

/-- A dataset with temperature on a grid; further dimensions and variables at the end. -/
def toyGrid (xUnit yUnit mapping : String) (time : Nat) (shape : List String) (coords : String) (d : List (String × Nat))
    (v : List (String × List String × List (String × String))) : CDM Unit String Unit :=
  toyCdm ([("time", time), ("x", 3), ("y", 4)] ++ d)
    ([("time", ["time"], [("units", "hours")]), ("x", ["x"], [("axis", "X"), ("units", xUnit)]), ("y", ["y"], [("axis", "Y"), ("units", yUnit)]),
     (mapping, [], [("grid_mapping_name", "lambert_conformal_conic")]),
     ("T", shape, [("grid_mapping", mapping), ("coordinates", coords)])] ++ v)

def xyt : List String := ["x", "y", "time"]

/-- Both datasets have `T`; `P` of the inner dataset is gone, `Q` of the outer one is added. -/
example : shown (toyGrid "m" "m" "lcc" 2 xyt "" [] [("P", xyt, [])])
      (toyMerge (toyGrid "m" "m" "lcc" 2 xyt "" [] [("P", xyt, [])]) (toyGrid "m" "m" "lcc" 2 xyt "" [("k", 5)] [("Q", ["x", "y", "k"], [])]) true) =
    .ok ([("time", .ok .inner), ("x", .ok .inner), ("y", .ok .inner), ("lcc", .ok .both), ("T", .ok .both), ("Q", .ok .outer)],
      [("time", 2), ("x", 3), ("y", 4), ("k", 5)]) := by decide +kernel

/-- **C102.** Axes with different units: the values of the y axis are in metres, and said to be in kilometres. -/
theorem C102_unit_of_y : let c := toyGrid "km" "m" "lcc" 2 xyt "" [] []
    chooseGrid (toyReader c) c c.vars = .ok ("x", "y", ⟨"lambert_conformal_conic", ["km", "km", "km"], ["m", "m", "m", "m"], "km", "km"⟩) := by
  decide +kernel

/-- **C102.** A variable of a dimension with the same name and another length is taken for compatible: the comparison of the lengths is left out
when the names are the same, and a dimension of members is no axis that is compared. -/
theorem C102_same_names : let inner := toyGrid "m" "m" "lcc" 2 ["x", "y", "ens"] "" [("ens", 2)] []
    let outer := toyGrid "m" "m" "lcc" 2 ["x", "y", "ens"] "" [("ens", 3)] []
    isCompatible inner outer (toySystems inner) (toySystems outer) "T" = .ok true ∧ lengthOf inner "ens" = some 2 ∧ lengthOf outer "ens" = some 3 := by
  decide +kernel

/-- **C102.** With different names for the dimension the same variables are not compatible. -/
theorem C102_other_names : let inner := toyGrid "m" "m" "lcc" 2 ["x", "y", "ens"] "" [("ens", 2)] []
    let outer := toyGrid "m" "m" "lcc" 2 ["x", "y", "member"] "" [("member", 3)] []
    isCompatible inner outer (toySystems inner) (toySystems outer) "T" = .ok false := by
  decide +kernel

/-- **C102.** Variables are compatible whatever their shapes are, if no convention is known for the datasets. -/
theorem C102_no_system : let inner := toyGrid "m" "m" "lcc" 2 xyt "" [("k", 2)] [("S", ["k"], [])]
    let outer := toyGrid "m" "m" "lcc" 2 xyt "" [("k", 3), ("l", 7)] [("S", ["l", "k"], [])]
    isCompatible inner outer ([] : List (System String)) [] "S" = .ok true := by
  decide +kernel

/-- **C102.** Coefficients of levels on dimensions with different names: merging is undefined behaviour. -/
theorem C102_null_axis_case : let inner := toyGrid "m" "m" "lcc" 2 xyt "" [("k", 5)] [("k", ["k"], []), ("ap", ["k"], [])]
    let outer := toyGrid "m" "m" "lcc" 2 xyt "" [("lev", 5)] [("lev", ["lev"], []), ("ap", ["lev"], [])]
    isCompatible inner outer (toySystems inner) (toySystems outer) "ap" = .ub := by
  decide +kernel

/-- **C102.** A scalar coordinate, as the height of a temperature, is an axis without dimension: merging raises an error. -/
theorem C102_scalar_axis_raises : let c := toyGrid "m" "m" "lcc" 2 xyt "height" [] [("height", [], [("units", "m"), ("positive", "up")])]
    shown c (toyMerge c c false) = .throws ∧ chooseGrid (toyReader c) c c.vars =
      .ok ("x", "y", ⟨"lambert_conformal_conic", ["m", "m", "m"], ["m", "m", "m", "m"], "m", "m"⟩) := by
  decide +kernel

/-- **C102.** The name of the grid mapping is another in the outer dataset: the mapping of the inner one stays in the overlay, and cannot be
read. -/
theorem C102_auxiliary_unreadable : shown (toyGrid "m" "m" "lcc" 2 xyt "" [] [])
      (toyMerge (toyGrid "m" "m" "lcc" 2 xyt "" [] []) (toyGrid "m" "m" "lambert" 2 xyt "" [] []) false) =
    .ok ([("time", .ok .inner), ("x", .ok .inner), ("y", .ok .inner), ("lcc", .throws), ("T", .ok .both)], [("time", 2), ("x", 3), ("y", 4)]) := by
  decide +kernel

/-- **C102.** A variable of the outer dataset with three times is in the merged dataset with the two times of the inner one. -/
theorem C102_outer_length : shown (toyGrid "m" "m" "lcc" 2 xyt "" [] [])
      (toyMerge (toyGrid "m" "m" "lcc" 2 xyt "" [] []) (toyGrid "m" "m" "lcc" 3 xyt "" [] [("Q", xyt, [])]) true) =
    .ok ([("time", .ok .inner), ("x", .ok .inner), ("y", .ok .inner), ("lcc", .ok .both), ("Q", .ok .outer)], [("time", 2), ("x", 3), ("y", 4)]) := by
  decide +kernel

end Fimex.Merged
