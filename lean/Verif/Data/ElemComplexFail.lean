import Verif.Data.ElemCases
/-!
# Complex element results that cannot be returned (C50)
-/

namespace Verif.Data
open Verif
open Verif.Seq (Str)
variable {K : Type} [Field K]

/-- **C50** (when it fails, complex results): no record is concerned, one of them has no result for the position, or
the results of two elements have different axes (first and second order shells together):
`ValueError`. -/
theorem element_results_fail_complex {d : Struc K} {m : Mesh K} (hd : Holds d m) (hv : Valid m) {sets : SetsArg}
    (hs : NoSets sets ∨ HoldsSets d m) {restype kind : String} {es : List Nat}
    (hc : Chosen m sets (some kind) es) {recs kept : List (ElemRec (K × K))}
    (hres : HoldsElemRes d restype kind storedComplex recs) {refs : List ResRef}
    (hrefs : d.rdresref = some refs) {run : Int} {rescases : CasesArg} {flag : Int} (hf : flag ≠ 0)
    (hflag : ∀ r, Wanted refs run rescases r → r.icompl = flag) {cs : List Int}
    (hcs : CaseNumbers refs run rescases cs) (hcne : cs ≠ [])
    (hk : Kept (Concerns refs run rescases es) recs kept) {s3 : K} {pos : String}
    {bs : List (Option (Block (K × K)))}
    (hb : List.Forall₂ (fun (e : ElemRec (K × K)) b => processElem s3 e.typ restype pos e.values = .ok b) kept bs)
    (hbad : kept = [] ∨ none ∈ bs ∨ ∃ b b', some b ∈ bs ∧ some b' ∈ bs ∧ b.dims ≠ b'.dims) :
    getElementResults s3 d restype pos run rescases sets = .error .valueError := by
  obtain ⟨arr, rows, h1, h2⟩ := elementResults_head hd hv hs hc hres hrefs hflag hcs hcne hk s3 pos
  have hbb : concatBlocks bs = .error .valueError := by
    by_cases hnone : none ∈ bs
    · exact concatBlocks_none (.inr hnone)
    · rcases hbad with rfl | h | ⟨b, b', hb1, hb2, hne⟩
      · cases hb; exact concatBlocks_none (.inl rfl)
      · exact absurd h hnone
      · obtain ⟨bs', rfl⟩ : ∃ bs' : List (Block (K × K)), bs = bs'.map some := by
          clear hb hb1 hb2 hne
          induction bs with
          | nil => exact ⟨[], rfl⟩
          | cons b bs ih =>
            obtain ⟨bs', rfl⟩ := ih fun h => hnone (List.mem_cons_of_mem _ h)
            cases b with
            | none => exact absurd List.mem_cons_self hnone
            | some b => exact ⟨b :: bs', rfl⟩
        exact concatBlocks_mixed (by simpa using hb1) (by simpa using hb2) hne
  have hm := mapM_blocks (s3 := s3) (restype := restype) (pos := pos) (conv := asPairs)
    (stored := storedComplex) asPairs_stored h1 hb
  rw [h2, if_pos hf]
  unfold collect
  rw [hm, bind_ok, hbb]
  rfl

/-- **C50** (when it fails, complex results): the first record that cannot be processed decides on the exception. -/
theorem element_results_error_complex {d : Struc K} {m : Mesh K} (hd : Holds d m) (hv : Valid m) {sets : SetsArg}
    (hs : NoSets sets ∨ HoldsSets d m) {restype kind : String} {es : List Nat}
    (hc : Chosen m sets (some kind) es) {recs before after : List (ElemRec (K × K))} {bad : ElemRec (K × K)}
    (hres : HoldsElemRes d restype kind storedComplex recs) {refs : List ResRef}
    (hrefs : d.rdresref = some refs) {run : Int} {rescases : CasesArg} {flag : Int} (hf : flag ≠ 0)
    (hflag : ∀ r, Wanted refs run rescases r → r.icompl = flag) {cs : List Int}
    (hcs : CaseNumbers refs run rescases cs) (hcne : cs ≠ [])
    (hk : Kept (Concerns refs run rescases es) recs (before ++ bad :: after)) {s3 : K} {pos : String}
    {e : Err} (hb : ∀ r ∈ before, ∃ b, processElem s3 r.typ restype pos r.values = .ok b)
    (he : processElem s3 bad.typ restype pos bad.values = .error e) :
    getElementResults s3 d restype pos run rescases sets = .error e := by
  obtain ⟨arr, rows, h1, h2⟩ := elementResults_head hd hv hs hc hres hrefs hflag hcs hcne hk s3 pos
  have hm : (rows.mapM fun r => asPairs (npSlice arr r.start r.stop) >>= fun d =>
      processElem s3 r.ir restype pos d) = .error e := by
    clear h2 hk
    induction before generalizing rows with
    | nil =>
      cases h1 with
      | cons h t =>
        obtain ⟨_, _, h3, a, b, h4, h5, _, _, h6⟩ := h
        rw [List.mapM_cons, h4, h5, npSlice_nat, h6, asPairs_stored, bind_ok, h3, he]; rfl
    | cons r before ih =>
      cases h1 with
      | cons h t =>
        obtain ⟨_, _, h3, a, b, h4, h5, _, _, h6⟩ := h
        obtain ⟨b, hb'⟩ := hb r List.mem_cons_self
        rw [List.mapM_cons, h4, h5, npSlice_nat, h6, asPairs_stored, bind_ok, h3, hb', bind_ok,
          ih (fun r hr => hb r (List.mem_cons_of_mem _ hr)) _ t]; rfl
  rw [h2, if_pos hf]
  unfold collect
  rw [hm]
  rfl

namespace ComplexDemo
open Demo

theorem cx_complex (r : ResRef) (h : Wanted cxRefs 1 .all r) : r.icompl = 1 := by
  obtain ⟨h1, h2, _⟩ := h
  simp only [cxRefs, List.mem_cons, List.not_mem_nil, or_false] at h1
  rcases h1 with rfl | rfl
  · rfl
  · exact absurd h2 (by decide)

theorem cxCases : CaseNumbers cxRefs 1 .all [7] := ⟨by decide, fun c => by rw [cx_wanted]; simp⟩

def cxFewObject : Struc Rat :=
  { cxObject with rvforces := some ([⟨8, 1, 15, 0, 36⟩], (cxForces 3).flatMap storedComplex) }
def cxOddObject : Struc Rat :=
  { cxObject with rvforces := some ([⟨7, 1, 15, 0, 36⟩, ⟨7, 4, 99, 36, 38⟩],
      (cxForces 3).flatMap storedComplex ++ [1, 2]) }

/-- complex forces in another result case only -/
example := element_results_fail_complex (d := cxFewObject)
  ⟨rfl, elemHolds.nodes, elemHolds.coords, elemHolds.elems⟩
  elemValid (.inl (.inl rfl)) elemChosen (recs := [cxForce 8 1 3]) (restype := "beamforce")
  ⟨_, _, .beamforce, .cons ⟨rfl, rfl, rfl, 0, 36, rfl, rfl, by decide, by decide,
    by decide +kernel⟩ .nil⟩
  (refs := cxRefs) rfl (run := 1) (rescases := .all) (flag := 1) (by decide) cx_complex cxCases (by simp)
  (.drop (by rw [cxConcerns]; decide) .nil) (s3 := (0 : Rat)) (pos := "nodes") .nil (.inl rfl)

/-- an element of a type without processing -/
example := element_results_error_complex (d := cxOddObject)
  ⟨rfl, elemHolds.nodes, elemHolds.coords, elemHolds.elems⟩
  elemValid (.inl (.inl rfl)) elemChosen (recs := [cxForce 7 1 3, ⟨7, 4, 99, [(1, 2)]⟩])
  (restype := "beamforce")
  ⟨_, _, .beamforce, .cons ⟨rfl, rfl, rfl, 0, 36, rfl, rfl, by decide, by decide, by decide +kernel⟩ <|
    .cons ⟨rfl, rfl, rfl, 36, 38, rfl, rfl, by decide, by decide, by decide +kernel⟩ .nil⟩
  (refs := cxRefs) rfl (run := 1) (rescases := .all) (flag := 1) (by decide) cx_complex cxCases (by simp)
  (before := [cxForce 7 1 3]) (after := [])
  (.keep (by rw [cxConcerns]; decide) <| .keep (by
    refine ⟨(cx_wanted 7).mpr rfl, 3, by simp, rfl⟩) .nil) (s3 := (0 : Rat)) (pos := "nodes")
  (by
    intro r hr
    obtain rfl := List.mem_singleton.mp hr
    exact ⟨_, beam_points 0 _ _ rfl⟩)
  (unknown_type 0 rfl _ _ _)

end ComplexDemo
end Verif.Data
