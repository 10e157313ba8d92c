import Verif.Vtf.Model
/-!
# C61: creating a `VtfData` object
-/

namespace Verif.Vtf
open Verif Verif.Seq

/-- what a new model should be: the given name and description, nothing in it, numbers from 1 -/
structure Empty (self : Attrs) (name description : Str) : Prop where
  name : self.lookup "name" = some (.str name)
  description : self.lookup "description" = some (.str description)
  containers : ∀ c ∈ ["nodes", "elems", "scalars", "results"], self.lookup c = some (.odict [])
  counters : ∀ c ∈ ["nodes_id_counter", "elems_id_counter", "scalar_id_counter",
    "results_id_counter"], self.lookup c = some (.counter 1)
  geometry : self.lookup "geom_id" = some (.int 1)
  byKind : ∃ d, self.lookup "counters" = some (.dict d) ∧
    ∀ k ∈ ["nodes", "elems", "scalars", "results"], d.lookup k = some (.counter 1)
  inKind : ∃ d, self.lookup "containers" = some (.dict d) ∧
    ∀ k ∈ ["nodes", "elems", "results"], d.lookup k = some (.odict [])
  noneYet : ∃ d, self.lookup "current_ids" = some (.dict d) ∧ d.lookup "nodes" = some .none

/-- **C61** (refutation): no `VtfData` object can be created, whatever its name and description:
AttributeError.  The same holds for every derived class that does not define `scalar`. -/
theorem derived_not_created (cls : Attrs) (name description : Str)
    (h : cls.lookup "scalar" = none) : construct cls name description = .error .attributeError := by
  simp [construct, basic, getAttr, setAttr, List.lookup, h, bind, Except.bind]

theorem not_created (name description : Str) :
    construct vtfClass name description = .error .attributeError :=
  derived_not_created _ _ _ (by simp [vtfClass, List.lookup])

/-- **C61**, the part that holds: a derived class that defines `scalar` gives the empty model. -/
theorem created_partial (cls : Attrs) (v : Obj) (name description : Str)
    (h : cls.lookup "scalar" = some v) :
    ∃ self, construct cls name description = .ok self ∧ Empty self name description := by
  refine ⟨_, by
    simp only [construct, basic, getAttr, setAttr, List.lookup, h, bind, Except.bind, List.foldl]
    rfl, rfl, rfl, ?_, ?_, rfl, ?_, ?_, ?_⟩
  · intro c hc
    simp only [List.mem_cons, List.not_mem_nil, or_false] at hc
    rcases hc with rfl | rfl | rfl | rfl <;> rfl
  · intro c hc
    simp only [List.mem_cons, List.not_mem_nil, or_false] at hc
    rcases hc with rfl | rfl | rfl | rfl <;> rfl
  · exact ⟨_, rfl, by
      intro c hc
      simp only [List.mem_cons, List.not_mem_nil, or_false] at hc
      rcases hc with rfl | rfl | rfl | rfl <;> rfl⟩
  · exact ⟨_, rfl, by
      intro c hc
      simp only [List.mem_cons, List.not_mem_nil, or_false] at hc
      rcases hc with rfl | rfl | rfl <;> rfl⟩
  · exact ⟨_, rfl, rfl⟩

/-- a derived class with an attribute `scalar` -/
example := created_partial (("scalar", .odict []) :: vtfClass) (.odict []) "Model".toList [] rfl

end Verif.Vtf
