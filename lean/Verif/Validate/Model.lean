import Mathlib.Data.List.Sort
/-!
Model of the validation of datasets: `data_model/cxx/source/validate.cpp` (`V` below), as used by `lue_validate`, by the import
command and by `lue.data_model.assert_is_valid`.

A dataset is represented by the information that the validation reads from it. Issues are represented by a text per kind (the text
in the code also contains the offending numbers). What `value[..]`, `nr_arrays()`, ... return is C36's subject.
-/
namespace Lue.Validate

/-! ## What is stored -/

/-- `ID`, object_id.hpp; the object tracker, object_tracker.hpp: start of each active set, ids of the active objects and their
indices in the value arrays. -/
structure Tracker where
  setIdx : List Nat
  ids : List Nat
  objIdx : List Nat
  deriving Repr, DecidableEq

/-- The items of a time domain (time_box.hpp, time_cell.hpp, time_point.hpp). Boxes are pairs of coordinates. -/
inductive TimeItems
  | box (boxes : List (Nat × Nat))
  | cell (boxes : List (Nat × Nat)) (counts : List Nat)
  | point (points : List Nat)
  deriving Repr, DecidableEq

/-- A time domain: which HDF5 object it is, and its items. -/
structure TimeDomain where
  id : Nat
  items : TimeItems
  deriving Repr, DecidableEq

/-- The six kinds of properties: the same or different shape per object; constant, or variable in time with a constant or variable shape. -/
inductive Kind
  | same | different | sameConstant | differentConstant | sameVariable | differentVariable
  deriving Repr, DecidableEq

/-- properties.cpp:83-108 `shape_per_object` -/
def Kind.isSame : Kind → Bool
  | .same | .sameConstant | .sameVariable => true
  | _ => false

/-- properties.cpp:111-136 `value_variability` -/
def Kind.isConstant : Kind → Bool
  | .same | .different => true
  | _ => false

/-- Another property, which tells how values are discretized, as far as the validation looks at it: its kind, whether it is in one of the
property sets for the collection as a whole, its number of object arrays and whether its values are unsigned integers. -/
structure Target where
  kind : Kind
  collection : Bool
  nrArrays : Nat
  unsigned : Bool
  deriving Repr, DecidableEq

/-- What properties of all kinds have. -/
structure Discr where
  time : Option Target
  space : Option Target
  deriving Repr, DecidableEq

/-- No discretization. -/
def Discr.none : Discr := ⟨.none, .none⟩

/-- `same_shape::Property`: the number of object arrays. -/
structure Same where
  nrArrays : Nat
  discr : Discr
  deriving Repr, DecidableEq

/-- `different_shape::Property`: the number of objects as stored (an attribute), and the objects for which an array exists. -/
structure Different where
  nrObjects : Nat
  objects : List Nat
  discr : Discr
  deriving Repr, DecidableEq

/-- `same_shape::constant_shape::Property` -/
structure SameConstant where
  nrArrays : Nat
  discr : Discr
  deriving Repr, DecidableEq

/-- `different_shape::constant_shape::Property`: per object the number of object arrays. -/
structure DifferentConstant where
  nrObjects : Nat
  arrays : List (Nat × Nat)
  discr : Discr
  deriving Repr, DecidableEq

/-- `same_shape::variable_shape::Property`: per location in time the number of object arrays. -/
structure SameVariable where
  arrays : List Nat
  discr : Discr
  deriving Repr, DecidableEq

/-- `different_shape::variable_shape::Property`: the number of locations in time. -/
structure DifferentVariable where
  nrTimes : Nat
  discr : Discr
  deriving Repr, DecidableEq

/-- properties.hpp: the collections of properties. -/
structure Properties where
  same : List Same
  different : List Different
  sameConstant : List SameConstant
  differentConstant : List DifferentConstant
  sameVariable : List SameVariable
  differentVariable : List DifferentVariable
  deriving Repr, DecidableEq

/-- The property which discretizes the presence in space: its kind and the time domain of its property set. -/
structure Presence where
  kind : Kind
  timeDomain : Option Nat
  deriving Repr, DecidableEq

/-- space_domain.hpp: configuration, number of items. -/
structure SpaceDomain where
  mobile : Bool
  isBox : Bool
  nrArrays : Nat
  presence : Option Presence
  deriving Repr, DecidableEq

/-- property_set.hpp -/
structure PropertySet where
  tracker : Tracker
  time : Option TimeDomain
  space : Option SpaceDomain
  properties : Properties
  deriving Repr, DecidableEq

/-- phenomenon.hpp -/
structure Phenomenon where
  ids : List Nat
  propertySets : List PropertySet
  collectionPropertySets : List PropertySet
  deriving Repr, DecidableEq

/-- dataset.hpp; a universe is a list of phenomena -/
structure Dataset where
  universes : List (List Phenomenon)
  phenomena : List Phenomenon
  deriving Repr, DecidableEq

/-! ## Validation -/

/-- issues.hpp -/
inductive Issue
  | error (what : String)
  | warning (what : String)
  deriving Repr, DecidableEq

/-- What can interrupt the validation: reading beyond the end of a vector, an exception. -/
inductive Exc
  | outOfBounds
  | runtimeError (what : String)
  deriving Repr, DecidableEq

/-- The issues found. -/
abbrev R := Except Exc (List Issue)

/-- The issues of the second call are added to those of the first. -/
def R.andThen (a b : R) : R :=
  match a with
  | .error e => .error e
  | .ok l => match b with
    | .error e => .error e
    | .ok m => .ok (l ++ m)

/-- A loop over a collection. -/
def R.forEach {α : Type} (l : List α) (f : α → R) : R :=
  match l with
  | [] => .ok []
  | x :: l => R.andThen (f x) (R.forEach l f)

/-- `if (condition) issues.add_error(...)` -/
def errorIf (c : Bool) (what : String) : List Issue := if c then [.error what] else []

/-- `not_supported_yet`, V:26-35 -/
def notSupportedIf (c : Bool) (what : String) : List Issue := if c then [.warning what] else []

/-- `std::adjacent_find`: whether two adjacent values satisfy the predicate. -/
def adjacentFind (p : Nat → Nat → Bool) : List Nat → Bool
  | a :: b :: l => p a b || adjacentFind p (b :: l)
  | _ => false

/-- V:107-126 `assert_ids_are_unique`: true if no equal neighbours are found in the sorted collection. `std::sort` is an insertion sort here. -/
def idsAreUnique (ids : List Nat) : Bool := !adjacentFind (fun a b => a == b) (ids.insertionSort (· ≤ ·))

/-- V:159-187 `assert_increasing` -/
def assertIncreasing (l : List Nat) : List Issue := errorIf (adjacentFind (fun a b => decide (a > b)) l) "values must be increasing"

/-- V:190-209 `validate_value`, same_shape -/
def validateValueSame (ids : List Nat) (nrArrays : Nat) : List Issue :=
  errorIf (nrArrays != ids.length) "number of object arrays does not equal the number of IDs"

/-- V:212-248 `validate_value`, different_shape -/
def validateValueDifferent (ids : List Nat) (nrObjects : Nat) (objects : List Nat) : List Issue :=
  if nrObjects != ids.length then [.error "number of object arrays does not equal the number of IDs"]
  else ids.flatMap fun i => errorIf (!objects.contains i) "for at least one object, no value is stored"

/-- V:251-275 `validate_value`, same_shape::constant_shape -/
def validateValueSameConstant (t : Tracker) (nrArrays : Nat) : List Issue :=
  errorIf (nrArrays != t.ids.length) "number of object arrays does not equal the number of active object IDs"

/-- V:356-381: the inner loop over the objects of an active set, from `k` on, `n` of them. `value[id]` is the array of the object;
reading an element of a `std::vector` that does not exist is undefined behaviour. -/
def activeSetLoop (t : Tracker) (arrays : List (Nat × Nat)) (k : Nat) : Nat → R
  | 0 => .ok []
  | n + 1 =>
    match t.ids[k]?, t.objIdx[k]? with
    | some id, some idx =>
      match arrays.lookup id with
      | some nr => if idx ≥ nr then .ok [.error "not enough object arrays"] else activeSetLoop t arrays (k + 1) n
      | none => .error (.runtimeError "value array cannot be opened")
    | _, _ => .error .outOfBounds

/-- V:352-385: the loop over the active sets, given by their end indices. -/
def activeSetsLoop (t : Tracker) (arrays : List (Nat × Nat)) : Nat → List Nat → R
  | _, [] => .ok []
  | b, e :: es => R.andThen (activeSetLoop t arrays b (e - b)) (activeSetsLoop t arrays e es)

/-- The distinct elements of a list: `std::set<ID>`, V:310 -/
def distinct : List Nat → List Nat
  | [] => []
  | x :: l => if l.contains x then distinct l else x :: distinct l

/-- V:278-393 `validate_value`, different_shape::constant_shape -/
def validateValueDifferentConstant (t : Tracker) (nrObjects : Nat) (arrays : List (Nat × Nat)) : R :=
  let unique := distinct t.ids
  if nrObjects != unique.length then .ok [.error "number of value arrays must equal the number of active objects"]
  else if unique.any fun id => (arrays.lookup id).isNone then .ok [.error "each active object must have a value array"]
  else
    match t.setIdx ++ [t.ids.length] with
    | b :: es => activeSetsLoop t arrays b es
    | [] => .error .outOfBounds

/-- V:431-455: the loop over the active sets; `value[i - 1]` is the array for a location in time. -/
def variableLoop (arrays : List Nat) : Nat → Nat → List Nat → R
  | _, _, [] => .ok []
  | i, b, e :: es =>
    match arrays[i]? with
    | some nr => if nr != e - b then .ok [.error "number of object arrays does not equal the size of the active set"]
                 else variableLoop arrays (i + 1) e es
    | none => .error (.runtimeError "value array cannot be opened")

/-- V:396-458 `validate_value`, same_shape::variable_shape -/
def validateValueSameVariable (t : Tracker) (arrays : List Nat) : R :=
  if arrays.length != t.setIdx.length then .ok [.error "number of value arrays does not equal the number of active sets"]
  else
    match t.setIdx ++ [t.ids.length] with
    | b :: es => variableLoop arrays 0 b es
    | [] => .error .outOfBounds

/-- V:460-523 `validate_value`, different_shape::variable_shape -/
def validateValueDifferentVariable (t : Tracker) (nrTimes : Nat) : List Issue :=
  if nrTimes != t.setIdx.length then [.error "number of value arrays does not equal the number of active sets"]
  else [.warning "validation of different_shape::variable_shape::Value"]

/-- V:525-528 `validate_id` -/
def validateId (ids : List Nat) : List Issue := errorIf (!idsAreUnique ids) "object IDs must be unique"

/-- V:567-612: the loop in `validate_active_ids` -/
def activeIdsLoop (ids : List Nat) : Nat → List Nat → List Issue
  | _, [] => []
  | b, e :: es =>
    if e < b then [.error "start indices must be increasing"]
    else if e > ids.length then [.error "part of the active object IDs is missing"]
    else if !idsAreUnique ((ids.drop b).take (e - b)) then [.error "object IDs must be unique"]
    else activeIdsLoop ids e es

/-- V:531-614 `validate_active_ids` -/
def validateActiveIds (setIdx ids : List Nat) : List Issue :=
  match setIdx with
  | [] => errorIf (!ids.isEmpty) "indices of active sets are missing"
  | b :: rest => activeIdsLoop ids b (rest ++ [ids.length])

/-- V:645-678: the loop in `validate_active_object_idxs` -/
def activeObjectIdxsLoop (n : Nat) : Nat → List Nat → List Issue
  | _, [] => []
  | b, e :: es =>
    if e < b then [.error "start indices must be increasing"]
    else if e > n then [.error "part of the active object indices is missing"]
    else activeObjectIdxsLoop n e es

/-- V:617-680 `validate_active_object_idxs` -/
def validateActiveObjectIdxs (setIdx objIdx : List Nat) : List Issue :=
  match setIdx with
  | [] => errorIf (!objIdx.isEmpty) "indices of active sets are missing"
  | b :: rest => if !objIdx.isEmpty then activeObjectIdxsLoop objIdx.length b (rest ++ [objIdx.length]) else []

/-- V:682-740 `validate_object_tracker` -/
def validateTracker (ids : List Nat) (t : Tracker) : List Issue :=
  validateId ids ++ validateActiveIds t.setIdx t.ids ++ validateActiveObjectIdxs t.setIdx t.objIdx ++
    if !ids.isEmpty then errorIf (t.ids.any fun i => !ids.contains i) "active object IDs must be object IDs" else []

/-- The coordinates, as they are stored: begin and end of the boxes. -/
def flat (boxes : List (Nat × Nat)) : List Nat := boxes.flatMap fun b => [b.1, b.2]

/-- V:743-778 `validate_time_box` -/
def validateTimeBox (t : Tracker) (boxes : List (Nat × Nat)) : List Issue :=
  assertIncreasing (flat boxes) ++ errorIf (boxes.length != t.setIdx.length) "number of boxes does not equal the number of active sets"

/-- V:780-838 `validate_time_cell` -/
def validateTimeCell (t : Tracker) (boxes : List (Nat × Nat)) (counts : List Nat) : List Issue :=
  assertIncreasing (flat boxes) ++
    if counts.length != boxes.length then [.error "number of counts does not equal the number of boxes"]
    else errorIf (counts.sum != t.setIdx.length) "number of cells does not equal the number of active sets"

/-- V:840-870 `validate_time_point` -/
def validateTimePoint (t : Tracker) (points : List Nat) : List Issue :=
  assertIncreasing points ++ errorIf (points.length != t.setIdx.length) "number of points does not equal the number of active sets"

/-- V:872-895 `validate`, time domain -/
def validateTime (t : Tracker) : TimeItems → List Issue
  | .box boxes => validateTimeBox t boxes
  | .cell boxes counts => validateTimeCell t boxes counts
  | .point points => validateTimePoint t points

/-- V:897-985 `validate`, space domain -/
def validateSpace (ids : List Nat) (t : Tracker) (s : SpaceDomain) : List Issue :=
  if s.mobile then validateValueSameConstant t s.nrArrays else validateValueSame ids s.nrArrays

/-- V:1038-1128 `validate_space_constant_regular_grid`. The argument `nrRequired` is the number of object arrays the discretization
property must have if it is not a property of the collection: V:988-1010 the number of objects, V:1013-1036 one. -/
def validateRegularGrid (target : Target) (nrRequired : Nat) : List Issue :=
  if !target.kind.isSame then [.error "shape of object arrays of regular grid must be the same for each object"]
  else
    (if target.collection then errorIf (target.nrArrays != 1) "number of object arrays in discretization property must be 1"
     else errorIf (target.nrArrays != nrRequired) "number of object arrays in discretization property") ++
    errorIf (!target.unsigned) "discretization property must contain unsigned integral values"

/-- V:1130-1144 `validate_property`, same_shape -/
def validateSame (ids : List Nat) (p : Same) : R :=
  .ok (validateValueSame ids p.nrArrays ++ notSupportedIf p.discr.time.isSome "discretization through time" ++
    notSupportedIf p.discr.space.isSome "discretization through space")

/-- V:1147-1188 `validate_property`, different_shape -/
def validateDifferent (ids : List Nat) (p : Different) : R :=
  .ok (validateValueDifferent ids p.nrObjects p.objects ++ notSupportedIf p.discr.time.isSome "discretization through time" ++
    match p.discr.space with
    | none => []
    | some target =>
      if !target.kind.isConstant then [.error "property values for discretization of constant property values must be constant themselves"]
      else validateRegularGrid target p.nrObjects)

/-- V:1191-1235 `validate_property`, same_shape::constant_shape -/
def validateSameConstant (t : Tracker) (p : SameConstant) : R :=
  .ok (validateValueSameConstant t p.nrArrays ++ notSupportedIf p.discr.time.isSome "discretization through time" ++
    match p.discr.space with
    | none => []
    | some target =>
      if target.kind.isConstant then validateRegularGrid target 1
      else [.warning "variable discretization through space"])

/-- V:1238-1278 `validate_property`, different_shape::constant_shape -/
def validateDifferentConstant (t : Tracker) (p : DifferentConstant) : R :=
  R.andThen (validateValueDifferentConstant t p.nrObjects p.arrays) (.ok
    (notSupportedIf p.discr.time.isSome "discretization through time" ++
    match p.discr.space with
    | none => []
    | some target =>
      if !target.kind.isConstant then [.error "property values for discretization of constant shaped values must be constant themselves"]
      else validateRegularGrid target p.nrObjects))

/-- V:1291-1400: the time discretization of a same_shape::variable_shape property. `shape_variability` throws if the property does not
vary through time (properties.cpp:139-164). `values_can_be_tested` is never true (V:1299), so the values are not looked at. -/
def validateTimeGrid (target : Target) : R :=
  let issues := errorIf target.kind.isConstant "property values for discretization of variable property values must be variable themselves"
    ++ errorIf (!target.kind.isSame) "property values of regular grid must be the same for each object"
  match target.kind with
  | .same | .different => .error (.runtimeError "property does not exist or does not vary through time")
  | .sameConstant | .differentConstant => .ok issues
  | .sameVariable | .differentVariable => .ok (issues ++ [.error "shape of property values of regular grid must be constant through time"])

/-- V:1281-1406 `validate_property`, same_shape::variable_shape -/
def validateSameVariable (t : Tracker) (p : SameVariable) : R :=
  R.andThen (validateValueSameVariable t p.arrays) (R.andThen
    (match p.discr.time with
     | none => .ok []
     | some target => validateTimeGrid target)
    (.ok (notSupportedIf p.discr.space.isSome "discretization through space")))

/-- V:1409-1428 `validate_property`, different_shape::variable_shape -/
def validateDifferentVariable (t : Tracker) (p : DifferentVariable) : R :=
  .ok (validateValueDifferentVariable t p.nrTimes ++ notSupportedIf p.discr.time.isSome "discretization through time" ++
    notSupportedIf p.discr.space.isSome "discretization through space")

/-- V:1430-1466 `validate_properties` -/
def validateProperties (ids : List Nat) (t : Tracker) (p : Properties) : R :=
  R.andThen (R.forEach p.same (validateSame ids)) <|
  R.andThen (R.forEach p.different (validateDifferent ids)) <|
  R.andThen (R.forEach p.sameConstant (validateSameConstant t)) <|
  R.andThen (R.forEach p.differentConstant (validateDifferentConstant t)) <|
  R.andThen (R.forEach p.sameVariable (validateSameVariable t)) <|
  R.forEach p.differentVariable (validateDifferentVariable t)

/-- V:1494-1571: discretized presence in space. -/
def validatePresence (s : SpaceDomain) (time : Option TimeDomain) : List Issue :=
  match s.presence with
  | none => []
  | some p =>
    if !s.isBox then [.error "discretization of presence in space is only supported for boxes"]
    else if s.mobile then [.warning "discretization of presence of mobile space domain items"]
    else if p.kind.isConstant then [.warning "discretization of constant presence of stationary space domain items"]
    else
      match p.timeDomain, time with
      | some a, some b => errorIf (a != b.id) "time domain of presence property must equal the time domain of the property set"
      | _, _ => []

/-- Whether there are errors among the issues. -/
def hasErrors (l : List Issue) : Bool := l.any fun i => match i with
  | .error _ => true
  | .warning _ => false

/-- Whether there are warnings among the issues. -/
def hasWarnings (l : List Issue) : Bool := l.any fun i => match i with
  | .error _ => false
  | .warning _ => true

/-- V:1468-1580 `validate_property_set`: nothing else is validated if the object tracker is not valid. -/
def validatePropertySet (ids : List Nat) (s : PropertySet) : R :=
  let issues := validateTracker ids s.tracker
  if hasErrors issues then .ok issues
  else
    R.andThen (.ok (issues ++ (match s.time with
        | none => []
        | some d => validateTime s.tracker d.items) ++ (match s.space with
        | none => []
        | some d => validateSpace ids s.tracker d ++ validatePresence d s.time)))
      (validateProperties ids s.tracker s.properties)

/-- V:1611-1626: the identifier of the collection as a whole. -/
def collectionId (t : Tracker) : Nat := t.ids.headD 999

/-- V:1594-1735: a property set for the collection as a whole. The second test (V:1716-1732) is the same as the first. -/
def validateCollectionPropertySet (s : PropertySet) : R :=
  R.andThen (validatePropertySet [collectionId s.tracker] s) (.ok
    (if !s.properties.sameConstant.isEmpty || !s.properties.sameVariable.isEmpty || !s.properties.differentConstant.isEmpty then
      errorIf (s.tracker.setIdx.length != s.tracker.ids.length) "size of each active set" ++
      (if !s.properties.differentConstant.isEmpty then
        errorIf (s.tracker.setIdx.length != s.tracker.ids.length) "size of each active set" else [])
     else []))

/-- V:1582-1737 `validate_phenomenon` -/
def validatePhenomenon (p : Phenomenon) : R :=
  R.andThen (R.forEach p.propertySets (validatePropertySet p.ids)) (R.forEach p.collectionPropertySets validateCollectionPropertySet)

/-- V:1740-1775 `validate`, universe and dataset -/
def validate (d : Dataset) : R :=
  R.andThen (R.forEach d.universes fun u => R.forEach u validatePhenomenon) (R.forEach d.phenomena validatePhenomenon)

/-- V:1861-1881 `assert_is_valid`: whether it returns without throwing. -/
def assertIsValid (d : Dataset) (failOnWarning : Bool) : Except Exc Unit :=
  match validate d with
  | .error e => .error e
  | .ok issues =>
    if hasErrors issues || (failOnWarning && hasWarnings issues) then .error (.runtimeError "issues found") else .ok ()

end Lue.Validate
