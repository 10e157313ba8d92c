import Verif.Session.ComplexDemo
import Verif.Data.ElemComplexFail
/-!
# Complex element results that cannot be returned, in a session (C50)
-/

namespace Verif.Session
open Verif Verif.Seq Verif.Parse Verif.Conv Verif.Data Verif.Data.Life Verif.Data.Load

variable {K V : Type} [Field K] [LinearOrder K] {iter : H5 → List (String × List String)} {pi : K}
  {num : PyF → K} {cplx : PyF → PyF → V} {D : Dec} {B : Nat}
variable {filename dir fname fp : Str} {l : Char} {no ext : Str} {b : Bytes}
  {f : List LRec} {names : List String} {t : Int} {n lev dt : String} {h0 h1 h2 : H5} {ms : List Str}
  {s : State} {stem e3 : Str}

/-- **C50** (when it fails, complex results) in a session: no record concerned, one without result for the position,
or results of different axes raise ValueError; a record that cannot be processed raises what
processing it raises. -/
theorem session_element_refused_complex (hs : Reachable iter pi num cplx D B s)
    (F : SesamFile D s.conv filename dir fname fp l no ext b fp f names t n "FIRSTLEVEL"
      "STRUCTURAL" {} h1 h2 ms)
    (hstem : fname = stem ++ e3) (he3 : e3.length = 3)
    (hfree : stem ++ "h5".toList ∉ s.conv.memory ++ s.conv.leaked) (hi : Enumerates h2 (iter h2))
    (hno : no = (toString t).toList)
    {m : Mesh K} (hm : MeshFile num f m) (hval : Valid m)
    {sets : SetsArg} (hsets : NoSets sets ∨ SetsFile f m) {restype kind : String} {es : List Nat}
    (hch : Chosen m sets (some kind) es) {recs kept : List (ElemRec (K × K))}
    (hres : ElemResFile num f restype kind storedComplex recs) {refs : List ResRef}
    (hrefs : Describes IsRef (recordsOf "RDRESREF" f) (some refs)) {run : Int} {rescases : CasesArg}
    {flag : Int} (hcx : flag ≠ 0)
    (hflag : ∀ r, Data.Wanted refs run rescases r → r.icompl = flag) {cs : List Int}
    (hcs : CaseNumbers refs run rescases cs) (hcne : cs ≠ [])
    (hk : Data.Kept (Concerns refs run rescases es) recs kept) (s3 : K) (pos : String) :
    ∃ s1 d, openSif iter pi num cplx D B s filename = (s1, .ok d) ∧
      ∀ s2, Spares iter pi num cplx D B s.life.files.length s1 s2 → ∃ o, struc num s2 d = .ok o ∧
        (∀ bs : List (Option (Block (K × K))),
          List.Forall₂ (fun (e : ElemRec (K × K)) b => processElem s3 e.typ restype pos e.values = .ok b)
            kept bs →
          (kept = [] ∨ none ∈ bs ∨ ∃ b b', some b ∈ bs ∧ some b' ∈ bs ∧ b.dims ≠ b'.dims) →
          getElementResults s3 o restype pos run rescases sets = .error .valueError) ∧
        (∀ before after bad e, kept = before ++ bad :: after →
          (∀ r ∈ before, ∃ b, processElem s3 r.typ restype pos r.values = .ok b) →
          processElem s3 bad.typ restype pos bad.values = .error e →
          getElementResults s3 o restype pos run rescases sets = .error e) := by
  obtain ⟨s1, d, o, q1, -, -, -, -, -, hr, q2⟩ := session_object hs F hstem he3 hfree hi hno
  refine ⟨s1, d, q1, fun s2 hsp => ⟨o, q2 s2 hsp, fun bs hb hbad => ?_, ?_⟩⟩
  · exact element_results_fail_complex (hr.mesh m hm) hval (hsets.imp id (hr.sets m)) hch
      (hr.elemRes (K × K) restype kind storedComplex recs hres) (hr.refs _ hrefs) hcx hflag hcs hcne hk hb hbad
  · rintro before after bad e rfl hb he
    exact element_results_error_complex (hr.mesh m hm) hval (hsets.imp id (hr.sets m)) hch
      (hr.elemRes (K × K) restype kind storedComplex recs hres) (hr.refs _ hrefs) hcx hflag hcs hcne hk hb he

end Verif.Session

namespace Verif.Session.ComplexDemo
open Verif Verif.Seq
open Verif.Parse hiding num
open Verif.Conv Verif.Data Verif.Data.Life Verif.Data.Load Verif.Session
open Verif.Session.WholeDemo (iter)
open Verif.Data.Load.HydroDemo (cplx)
open Verif.Data.Load.Demo (num)
open Verif.Data.Load.Demo2 (chosen noSets valid)

/-- C50: what is returned for the complex forces of the beam is an array or one of the exceptions -/
example := fun (h1 : H5)
    (F : SesamFile Dec.std start.conv "R5.SIU".toList "/c/".toList "R5.SIU".toList [] 'R'
      "5".toList "SIU".toList (75 :: Parse.Demo.bytes cxFile) [] cxFile cxNames 5 "R5"
      "FIRSTLEVEL" "STRUCTURAL" {} h1 h1 []) (hi : Enumerates h1 (iter h1)) =>
  session_element_refused_complex reach F
    (stem := "R5.".toList) (e3 := "SIU".toList) rfl rfl (by decide) hi (by decide +kernel)
    meshFile valid (.inl noSets) chosen forceFile
    refs (run := 1) (rescases := .all) (flag := 1) (by decide)
    (fun r hr => by rw [wanted.mp hr]) oneCase (by simp) (kept := [cxRec])
    (.keep ⟨⟨_, wanted.mpr rfl, rfl⟩, 0, by simp, rfl⟩ .nil) 0 "middle"

end Verif.Session.ComplexDemo
