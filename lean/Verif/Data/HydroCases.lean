import Verif.Data.HydroDemo
/-!
# Further concrete cases for C35, C36, C37, C52, C53: errors and the other getters
-/

namespace Verif.Data.Hydro.Demo
open Verif

section
variable {h : HydroObj Rat Cx}

example (hi : hydroInit 3 tabsD = .ok h) : getAngularFreqs h = .ok freqsD := by
  simpa using (grid_axes hi gridD).2
example (hi : hydroInit 3 tabsD = .ok h) := angular_freqs hi rfl
example (hi : hydroInit 3 tabsD = .ok h) := periods hi (grid_axes hi gridD).2
example (hi : hydroInit 3 tabsD = .ok h) := timesteps hi rfl

/-- no matrix of body 1 and 2 of type 31, no type 13, no body 7, no table -/
example (hi : hydroInit 3 tabsD = .ok h) : getMatrix h 31 1 2 = .error .conditionError :=
  matrix_none hi rfl rfl body1 body2 (by decide) (by
    intro r hr
    simp only [List.mem_cons, List.not_mem_nil, or_false] at hr
    rcases hr with rfl | rfl | rfl | rfl | rfl <;> unfold IsMatrixFor <;> decide)
example (hi : hydroInit 3 tabsD = .ok h) : getMatrix h 13 1 2 = .error .valueError :=
  matrix_type_error hi rfl rfl body1 body2 (by decide)
example (hi : hydroInit 3 tabsD = .ok h) : getMatrix h 12 1 7 = .error .conditionError :=
  matrix_unknown_body hi rfl rfl (.inr ⟨⟨_, body1⟩, by decide⟩)
example (hi : hydroInit 3 { tabsD with w1matrix := none } = .ok h) :
    getMatrix h 12 1 1 = .error .noSuchRecord := matrix_no_record hi rfl

/-- a body that is not on the file; one with no properties -/
example (hi : hydroInit 3 tabsD = .ok h) : getMotionRaos h 7 = .error .conditionError :=
  (unknown_body hi gridD rfl (by decide) (by decide)).1 (by simp [tabsD])
example (hi : hydroInit 3 tabsD = .ok h) : getExcitationForceRaos h 1 = .error .noSuchRecord :=
  (no_record 1 "velocity" hi gridD).2.1 rfl
example (hi : hydroInit 3 tabsD = .ok h) : getBodyProperties h 7 = .error .conditionError :=
  body_properties_missing hi rfl rfl (.inl (by decide))

/-- one section too many -/
example (hi : hydroInit 3 { tabsD with wsection := some (secD ++ secD) } = .ok h) :
    getSectionForceRaos h 0 = .error .valueError := by
  refine section_wrong_count hi ⟨gridD.dirs_nodup, gridD.freqs_nodup, gridD.dirs_ne, gridD.freqs_ne,
    gridD.refs⟩ rfl rfl .all ?_ (by decide +kernel)
  have : ∀ s ∈ secD, ∀ d ∈ dirsD, ∀ f ∈ freqsD, (sixOf (d + 1000 * s.isect) f).length = 6 :=
    fun _ _ _ _ _ _ => by simp [sixOf]
  intro r hr
  simp only [List.mem_flatMap, List.mem_map] at hr
  obtain ⟨s, hs, d, hd, f, hf, rfl⟩ := hr
  exact this s hs d hd f hf
/-- one point too few -/
example (hi : hydroInit 3 { tabsD with wfkpoint := some [⟨1, [0, 0, 0]⟩] } = .ok h) (kind : String) :
    getFluidKinematicsRaos h kind = .error .valueError := by
  refine kinematics_wrong_count hi ⟨gridD.dirs_nodup, gridD.freqs_nodup, gridD.dirs_ne,
    gridD.freqs_ne, gridD.refs⟩ rfl rfl ?_ (by decide +kernel)
  intro r hr
  simp only [List.mem_flatMap, List.mem_map] at hr
  obtain ⟨d, hd, f, hf, p, hp, rfl⟩ := hr
  rfl

/-- panel ids of all bodies; a body with a condition but no panels -/
example (hi : hydroInit 3 tabsD = .ok h) := panel_ids hi gridD rfl .all (by decide +kernel)
example (hi : hydroInit 3 tabsD = .ok h) :
    getPressurePanelIds h 2 = .ok none ∧ getPanelPressures h 2 = .ok none :=
  no_panels hi gridD (.inr (.inr ⟨_, rfl, .body rfl (by decide) body2 (by decide +kernel)⟩))
example (hi : hydroInit 3 tabsD = .ok h) := sections_points hi
example (hi : hydroInit 3 tabsD = .ok h) : getFluidKinematicsRaos h "force" = .error .valueError :=
  kinematics_kind hi gridD rfl (by decide)
/-- mean drift forces of all bodies -/
example (hi : hydroInit 3 { tabsD with
      w2mdrift := some (dirsD.flatMap fun d => freqsD.map fun f => ⟨5, (sixOf d f).map (·.1)⟩) } = .ok h) :=
  meandrift (row := fun d f => (sixOf d f).map (·.1)) hi ⟨gridD.dirs_nodup, gridD.freqs_nodup,
    gridD.dirs_ne, gridD.freqs_ne, gridD.refs⟩ rfl .all ⟨fun d _ f _ => by simp [sixOf], rfl⟩

/-- the pressures and the other kinds of kinematics; drift and excitation, for all bodies -/
example (hi : hydroInit 3 tabsD = .ok h) := pressure_raos hi gridD rfl rfl kinD
example (hi : hydroInit 3 { tabsD with
      w1exforc := some (dirsD.flatMap fun d => freqsD.map fun f => ⟨5, sixOf d f⟩) } = .ok h) :=
  excitation_raos (row := sixOf) hi ⟨gridD.dirs_nodup, gridD.freqs_nodup, gridD.dirs_ne,
    gridD.freqs_ne, gridD.refs⟩ rfl .all ⟨fun d _ f _ => by simp [sixOf], rfl⟩
end

end Verif.Data.Hydro.Demo
