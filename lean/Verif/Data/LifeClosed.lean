import Verif.Data.LifeOpen
import Verif.Data.Elem
import Verif.Data.HydroMore
/-!
# C25: the getters of closed data objects
-/

namespace Verif.Data.Life
open Verif Verif.Data

/-- every getter of a structural data object with data to return raises `ClosedFileError`; an
illegal result type is refused first -/
def StrucRefuses {K : Type} [Field K] (d : Struc K) : Prop :=
  getSetNames d = .error .closedFile ∧
  (∀ rescases, getResultcaseNames d rescases = .error .closedFile) ∧
  (∀ sets, getSectionProperties d sets = .error .closedFile ∧
    getShellThicknesses d sets = .error .closedFile) ∧
  (∀ sets kind disc, getElements d sets kind disc = .error .closedFile) ∧
  (∀ sets kind numbertype, getElementNumbers d sets kind numbertype = .error .closedFile) ∧
  (∀ sets kind disc numbertype, getNodeNumbers d sets kind disc numbertype = .error .closedFile) ∧
  (∀ fuel sets kind disc trans index,
    getNodes d fuel sets kind disc trans index = .error .closedFile) ∧
  (∀ restype run cases sets kind disc,
    restype = "displacement" ∨ restype = "velocity" ∨ restype = "acceleration" →
    getNodeResults d restype run cases sets kind disc = .error .closedFile) ∧
  (∀ s3 restype pos run cases sets, restype ∈ ["beamforce", "generalstress", "decomposedstress"] →
    getElementResults s3 d restype pos run cases sets = .error .closedFile)

theorem closed_struc {K : Type} [Field K] {d : Struc K} (h : d.isOpen = false) :
    StrucRefuses d := by
  refine ⟨?_, ?_, ?_, ?_, ?_, ?_, ?_, ?_, ?_⟩
  · unfold getSetNames need; rw [h]; rfl
  · intros; unfold getResultcaseNames need; rw [h]; rfl
  · intros
    constructor
    · unfold getSectionProperties need; rw [h]; rfl
    · unfold getShellThicknesses need; rw [h]; rfl
  · intros; unfold getElements need; rw [h]; rfl
  · intros; unfold getElementNumbers need; rw [h]; rfl
  · intros; unfold getNodeNumbers need; rw [h]; rfl
  · intros; unfold getNodes need; rw [h]; rfl
  · intro restype run cases sets kind disc hr
    have : nodeResTable d restype = .error .closedFile := by
      unfold nodeResTable need
      rw [h]
      rcases hr with rfl | rfl | rfl <;> rfl
    unfold getNodeResults
    rw [this]
    rfl
  · intro s3 restype pos run cases sets hr
    have : elemResTable d restype = .error .closedFile := by
      unfold elemResTable need
      rw [h]
      simp only [List.mem_cons, List.not_mem_nil, or_false] at hr
      rcases hr with rfl | rfl | rfl <;> rfl
    unfold getElementResults
    rw [this]
    rfl

/-- top level superelements -/
theorem closed_top {K : Type} [Semiring K] {d : Top K} (h : d.isOpen = false) (fuel : Nat)
    (seltyp index : Int) (level : Level) :
    getTransformation d fuel seltyp index level = .error .closedFile := by
  unfold getTransformation need
  rw [h]
  rfl

/-- **The whole of C25 for structural data**: after `close` on the File, or on any data object of
it, every getter of every data object of the File raises `ClosedFileError` whatever is called
afterwards. -/
theorem closed_getters {K : Type} [Field K] {w w' : World} {f : Nat} {l : List (String × Nat)}
    (hw : Reachable w) (hl : items w f = .ok l)
    (hs : Steps (closeFile w f) w' ∨ ∃ p ∈ l, Steps (closeData w p.2) w')
    {p : String × Nat} (hp : p ∈ l) :
    (∀ d : Struc K, d.isOpen = dataOpen w' p.2 → StrucRefuses d) ∧
    (∀ d : Top K, d.isOpen = dataOpen w' p.2 → ∀ fuel seltyp index level,
      getTransformation d fuel seltyp index level = .error .closedFile) := by
  have hs' : Steps (closeFile w f) w' := by
    rcases hs with hs | ⟨q, hq, hs⟩
    · exact hs
    · obtain ⟨g, l', h1, h2, h3⟩ := close_via_data hw ((open_file hw hl).1 q hq)
      have hfg : g = f := by
        have hinv := inv_reachable hw
        unfold items at h1 hl
        split at h1
        · rename_i l1 x1 e1
          split at hl
          · rename_i l2 x2 e2
            injection h1 with h1
            injection hl with hl
            subst h1
            subst hl
            obtain ⟨q', hq', e⟩ := List.mem_map.1 h2
            have c1 := hinv.chain g l1 x1 e1 q' hq'
            have c2 := hinv.chain f l2 x2 e2 q hq
            have e' : q'.2 = q.2 := e
            rw [e'] at c1
            exact chain_unique c1 c2
          · cases hl
        · cases h1
      rw [h3, hfg] at hs
      exact hs
  have hclosed := (closed_forever hw hl hs').2.1 p hp
  constructor
  · intro d hd
    exact closed_struc (hd.trans hclosed)
  · intro d hd fuel seltyp index level
    exact closed_top (hd.trans hclosed) fuel seltyp index level

end Verif.Data.Life
