import Verif.Seq.Base
/-!
# Model of the constructor of `VtfData` (utils/vtfdata.py)

An object is a list of attributes; an attribute that is not set on the object is looked up on its
class (which may be a derived class with further attributes).  Methods other than the constructor
are not modelled: no object exists on which they could be called (`Verif.Vtf.not_created`).
-/

namespace Verif.Vtf
open Verif Verif.Seq

/-- values of attributes; a counter is an `itertools.count` with its next value -/
inductive Obj where
  | int (n : Int)
  | str (t : Str)
  | none
  | counter (next : Nat)
  | odict (entries : List (Nat × String))
  | dict (entries : List (String × Obj))
  deriving Repr

/-- attributes of an object or a class, the latest first -/
abbrev Attrs := List (String × Obj)

/-- `self.name`: AttributeError if neither the object nor its class has the attribute -/
def getAttr (cls self : Attrs) (name : String) : Except Err Obj :=
  match self.lookup name with
  | some v => .ok v
  | .none =>
    match cls.lookup name with
    | some v => .ok v
    | .none => .error .attributeError

/-- `self.name = v` -/
def setAttr (name : String) (v : Obj) (self : Attrs) : Attrs := (name, v) :: self

/-- vtfdata.py:129-145: the attributes that do not depend on others -/
def basic (name description : Str) : Attrs :=
  [("geom_id", .int 1), ("name", .str name), ("description", .str description),
   ("nodes_id_counter", .counter 1), ("nodes", .odict []), ("current_nodes_id", .none),
   ("elems_id_counter", .counter 1), ("elems", .odict []),
   ("scalar_id_counter", .counter 1), ("scalars", .odict []),
   ("results_id_counter", .counter 1), ("results", .odict [])].foldl
    (fun self p => setAttr p.1 p.2 self) []

/-- vtfdata.py:127-158 `VtfData.__init__`; `cls` are the attributes of the class -/
def construct (cls : Attrs) (name description : Str) : Except Err Attrs := do
  let self := basic name description
  -- 147-150
  let self := setAttr "counters" (.dict [
    ("nodes", ← getAttr cls self "nodes_id_counter"), ("elems", ← getAttr cls self "elems_id_counter"),
    ("scalars", ← getAttr cls self "scalar_id_counter"),
    ("results", ← getAttr cls self "results_id_counter")]) self
  -- 152-155
  let self := setAttr "containers" (.dict [
    ("nodes", ← getAttr cls self "nodes"), ("elems", ← getAttr cls self "elems"),
    ("scalars", ← getAttr cls self "scalar"), ("results", ← getAttr cls self "results")]) self
  -- 157
  .ok (setAttr "current_ids" (.dict [("nodes", ← getAttr cls self "current_nodes_id")]) self)

/-- vtfdata.py:127-705: the attributes of the class are its methods -/
def vtfClass : Attrs :=
  ["__init__", "_get_new_id", "_get_current_id", "read", "add_nodes", "add_elements", "add_scalar",
   "add_element_scalar_results", "write"].map fun n => (n, .none)

end Verif.Vtf
