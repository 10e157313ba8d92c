import Verif.Session.AnyResDemo
import Verif.Data.AnyDisc
import Verif.Data.BytesProps
/-!
# Results for each place of each element, complex element results, refusals, and byte strings as
names of sets, in a session
-/

namespace Verif.Session
open Verif Verif.Seq Verif.Parse Verif.Conv Verif.Data Verif.Data.Life Verif.Data.Load

variable {K V : Type} [Field K] [LinearOrder K] {iter : H5 → List (String × List String)} {pi : K}
  {num : PyF → K} {cplx : PyF → PyF → V} {D : Dec} {B : Nat}
variable {filename dir fname fp : Str} {l : Char} {no ext : Str} {b : Bytes}
  {f : List LRec} {names : List String} {t : Int} {n lev dt : String} {h0 h1 h2 : H5} {ms : List Str}
  {s : State} {stem e3 : Str}

/-- **C83**: node results for each place of each selected element (`disconnected=True`) of a file on
disk, whatever the records of results are. -/
theorem session_node_places (hs : Reachable iter pi num cplx D B s)
    (F : SesamFile D s.conv filename dir fname fp l no ext b fp f names t n "FIRSTLEVEL"
      "STRUCTURAL" {} h1 h2 ms)
    (hstem : fname = stem ++ e3) (he3 : e3.length = 3)
    (hfree : stem ++ "h5".toList ∉ s.conv.memory ++ s.conv.leaked) (hi : Enumerates h2 (iter h2))
    (hno : no = (toString t).toList)
    {m : Mesh K} (hm : MeshFile num f m) (hval : Valid m)
    {sets : SetsArg} (hsets : NoSets sets ∨ SetsFile f m) {kind : Option String} {es : List Nat}
    (hch : Chosen m sets kind es) {els : List Element} (hl : Elements m es els) (hne : els ≠ [])
    {ns : List Nat} (hn : ns.map (· + 1) = els.flatMap Element.nodes)
    (restype : String) (run : Int) (rescases : CasesArg) :
    ∃ s1 d, openSif iter pi num cplx D B s filename = (s1, .ok d) ∧
      ∀ s2, Spares iter pi num cplx D B s.life.files.length s1 s2 → ∃ o, struc num s2 d = .ok o ∧
        (∀ e, getNodeResults o restype run rescases sets kind false = .error e →
          getNodeResults o restype run rescases sets kind true = .error e) ∧
        (∀ rows, getNodeResults o restype run rescases sets kind false = .ok (.single rows) →
          (∃ out, AtPlaces els ns rows out ∧
            getNodeResults o restype run rescases sets kind true = .ok (.single out)) ∨
          (Beyond els ns rows ∧
            getNodeResults o restype run rescases sets kind true = .error .indexError)) ∧
        (∀ arrs, getNodeResults o restype run rescases sets kind false = .ok (.cases arrs) →
          (∃ outs, List.Forall₂ (AtPlaces els ns) arrs outs ∧
            getNodeResults o restype run rescases sets kind true = .ok (.cases outs)) ∨
          ((∃ rows ∈ arrs, Beyond els ns rows) ∧
            getNodeResults o restype run rescases sets kind true = .error .indexError)) := by
  obtain ⟨s1, d, o, q1, -, -, -, -, -, hr, q2⟩ := session_object hs F hstem he3 hfree hi hno
  exact ⟨s1, d, q1, fun s2 hsp => ⟨o, q2 s2 hsp, node_results_places (hr.mesh m hm) hval
    (hsets.imp id (hr.sets m)) hch hl hne hn restype run rescases⟩⟩

/-- **C83**: element results (complex) of a file on disk, of records of the same axes, complete or
not, in any order. -/
theorem session_element_records_complex (hs : Reachable iter pi num cplx D B s)
    (F : SesamFile D s.conv filename dir fname fp l no ext b fp f names t n "FIRSTLEVEL"
      "STRUCTURAL" {} h1 h2 ms)
    (hstem : fname = stem ++ e3) (he3 : e3.length = 3)
    (hfree : stem ++ "h5".toList ∉ s.conv.memory ++ s.conv.leaked) (hi : Enumerates h2 (iter h2))
    (hno : no = (toString t).toList)
    {m : Mesh K} (hm : MeshFile num f m) (hval : Valid m)
    {sets : SetsArg} (hsets : NoSets sets ∨ SetsFile f m) {restype kind : String} {es : List Nat}
    (hch : Chosen m sets (some kind) es) {recs kept : List (ElemRec (K × K))}
    (hres : ElemResFile num f restype kind storedComplex recs) {refs : List ResRef}
    (hrefs : Describes IsRef (recordsOf "RDRESREF" f) (some refs)) {run : Int} {rescases : CasesArg}
    {flag : Int} (hcx : flag ≠ 0)
    (hflag : ∀ r, Data.Wanted refs run rescases r → r.icompl = flag) {cs : List Int}
    (hcs : CaseNumbers refs run rescases cs) (hcne : cs ≠ [])
    (hk : Data.Kept (Concerns refs run rescases es) recs kept) (hsome : kept ≠ []) {s3 : K}
    {pos : String} {bs : List (Block (K × K))}
    (hb : List.Forall₂ (fun (e : ElemRec (K × K)) b =>
      processElem s3 e.typ restype pos e.values = .ok (some b)) kept bs)
    {dims : List Nat} (hdims : ∀ b ∈ bs, b.dims = dims) (hfit : AxesFit restype dims) :
    ∃ s1 d, openSif iter pi num cplx D B s filename = (s1, .ok d) ∧
      ∀ s2, Spares iter pi num cplx D B s.life.files.length s1 s2 → ∃ o, struc num s2 d = .ok o ∧
        (∀ p, (bs.flatMap Block.rows).length = cs.length * p →
          getElementResults s3 o restype pos run rescases sets = .ok (.complex
            ⟨if cs.length = 1 then p :: dims else cs.length :: p :: dims,
              (bs.flatMap Block.rows).flatten⟩)) ∧
        (¬ cs.length ∣ (bs.flatMap Block.rows).length →
          getElementResults s3 o restype pos run rescases sets = .error .valueError) := by
  obtain ⟨s1, d, o, q1, -, -, -, -, -, hr, q2⟩ := session_object hs F hstem he3 hfree hi hno
  exact ⟨s1, d, q1, fun s2 hsp => ⟨o, q2 s2 hsp, element_results_any_complex (hr.mesh m hm) hval
    (hsets.imp id (hr.sets m)) hch (hr.elemRes (K × K) restype kind storedComplex recs hres)
    (hr.refs _ hrefs) hcx hflag hcs hcne hk hsome hb hdims hfit⟩⟩

/-- **C50** (when it fails) in a session: no record concerned, one without result for the position,
or results of different axes raise ValueError; a record that cannot be processed raises what
processing it raises. -/
theorem session_element_refused (hs : Reachable iter pi num cplx D B s)
    (F : SesamFile D s.conv filename dir fname fp l no ext b fp f names t n "FIRSTLEVEL"
      "STRUCTURAL" {} h1 h2 ms)
    (hstem : fname = stem ++ e3) (he3 : e3.length = 3)
    (hfree : stem ++ "h5".toList ∉ s.conv.memory ++ s.conv.leaked) (hi : Enumerates h2 (iter h2))
    (hno : no = (toString t).toList)
    {m : Mesh K} (hm : MeshFile num f m) (hval : Valid m)
    {sets : SetsArg} (hsets : NoSets sets ∨ SetsFile f m) {restype kind : String} {es : List Nat}
    (hch : Chosen m sets (some kind) es) {recs kept : List (ElemRec K)}
    (hres : ElemResFile num f restype kind storedReal recs) {refs : List ResRef}
    (hrefs : Describes IsRef (recordsOf "RDRESREF" f) (some refs)) {run : Int} {rescases : CasesArg}
    (hflag : ∀ r, Data.Wanted refs run rescases r → r.icompl = 0) {cs : List Int}
    (hcs : CaseNumbers refs run rescases cs) (hcne : cs ≠ [])
    (hk : Data.Kept (Concerns refs run rescases es) recs kept) (s3 : K) (pos : String) :
    ∃ s1 d, openSif iter pi num cplx D B s filename = (s1, .ok d) ∧
      ∀ s2, Spares iter pi num cplx D B s.life.files.length s1 s2 → ∃ o, struc num s2 d = .ok o ∧
        (∀ bs : List (Option (Block K)),
          List.Forall₂ (fun (e : ElemRec K) b => processElem s3 e.typ restype pos e.values = .ok b)
            kept bs →
          (kept = [] ∨ none ∈ bs ∨ ∃ b b', some b ∈ bs ∧ some b' ∈ bs ∧ b.dims ≠ b'.dims) →
          getElementResults s3 o restype pos run rescases sets = .error .valueError) ∧
        (∀ before after bad e, kept = before ++ bad :: after →
          (∀ r ∈ before, ∃ b, processElem s3 r.typ restype pos r.values = .ok b) →
          processElem s3 bad.typ restype pos bad.values = .error e →
          getElementResults s3 o restype pos run rescases sets = .error e) := by
  obtain ⟨s1, d, o, q1, -, -, -, -, -, hr, q2⟩ := session_object hs F hstem he3 hfree hi hno
  refine ⟨s1, d, q1, fun s2 hsp => ⟨o, q2 s2 hsp, fun bs hb hbad => ?_, ?_⟩⟩
  · exact element_results_fail (hr.mesh m hm) hval (hsets.imp id (hr.sets m)) hch
      (hr.elemRes K restype kind storedReal recs hres) (hr.refs _ hrefs) hflag hcs hcne hk hb hbad
  · rintro before after bad e rfl hb he
    exact element_results_error (hr.mesh m hm) hval (hsets.imp id (hr.sets m)) hch
      (hr.elemRes K restype kind storedReal recs hres) (hr.refs _ hrefs) hflag hcs hcne hk hb he

/-- **C84**: what `get_setnames` returns for a file on disk cannot be given to a getter as it is:
every getter raises; those of the mesh raise NameError. -/
theorem session_bytes (hs : Reachable iter pi num cplx D B s)
    (F : SesamFile D s.conv filename dir fname fp l no ext b fp f names t n "FIRSTLEVEL"
      "STRUCTURAL" {} h1 h2 ms)
    (hstem : fname = stem ++ e3) (he3 : e3.length = 3)
    (hfree : stem ++ "h5".toList ∉ s.conv.memory ++ s.conv.leaked) (hi : Enumerates h2 (iter h2))
    (hno : no = (toString t).toList)
    {m : Mesh K} (hm : MeshFile num f m) (hsets : SetsFile f m) :
    ∃ s1 d, openSif iter pi num cplx D B s filename = (s1, .ok d) ∧
      ∀ s2, Spares iter pi num cplx D B s.life.files.length s1 s2 → ∃ o, struc num s2 d = .ok o ∧
        getSetNames o = .ok (some (m.names.map Prod.fst)) ∧
        (∀ sets before e kind disc (ty : String) fuel tr index, GivesBytes sets before →
          BytesError m before e → ty = "internal" ∨ ty = "external" →
          getElements o sets kind disc = .error e ∧
          getElementNumbers o sets kind ty = .error e ∧
          getNodes o fuel sets kind disc tr index = .error e ∧
          getNodeNumbers o sets kind disc ty = .error e) ∧
        (∀ sets before restype pos run rescases kind disc s3, GivesBytes sets before →
          (∃ e, getNodeResults o restype run rescases sets kind disc = .error e) ∧
          (∃ e, getElementResults s3 o restype pos run rescases sets = .error e) ∧
          (∃ e, getSectionProperties o sets = .error e) ∧
          (∃ e, getShellThicknesses o sets = .error e)) := by
  obtain ⟨s1, d, o, q1, ho, -, -, -, -, hr, q2⟩ := session_object hs F hstem he3 hfree hi hno
  refine ⟨s1, d, q1, fun s2 hsp => ⟨o, q2 s2 hsp, ?_, ?_, ?_⟩⟩
  · rw [(set_names ho).1 _ (hr.sets m hsets).names, List.map_map]
    rfl
  · intro sets before e kind disc ty fuel tr index h he ht
    exact bytes_error (hr.mesh m hm) (hr.sets m hsets) h he kind disc ht fuel tr index
  · intro sets before restype pos run rescases kind disc s3 h
    obtain ⟨-, -, -, -, h1, h2, h3, h4⟩ := bytes_never (d := o) h kind disc restype pos 0 .none 1 run
      rescases s3
    exact ⟨h1, h2, h3, h4⟩

end Verif.Session

/-! ## examples -/

namespace Verif.Session.WholeDemo
open Verif Verif.Seq
open Verif.Parse hiding num
open Verif.Conv Verif.Data Verif.Data.Life Verif.Data.Load Verif.Session
open Verif.Data.Load.HydroDemo (cplx)
open Verif.Data.Load.Demo (num loadFile loadNames)
open Verif.Data.Load.Demo2 (beamFile beamNames beamRec)

/-- C83: the places of the element of set `A`: what is returned is taken from the rows returned
without `disconnected` -/
example : ∃ s1 d o, openSif iter 3 num cplx Dec.std 10000 start "R5.SIU".toList = (s1, .ok d) ∧
    struc num (closeFile s1 7) d = .ok o ∧
    ∀ rows, getNodeResults o "displacement" 1 .all (.one ['A']) none false = .ok (.single rows) →
      (∃ out, AtPlaces [⟨6, 15, [2, 3]⟩] [1, 2] rows out ∧
        getNodeResults o "displacement" 1 .all (.one ['A']) none true = .ok (.single out)) ∨
      (Beyond [⟨6, 15, [2, 3]⟩] [1, 2] rows ∧
        getNodeResults o "displacement" 1 .all (.one ['A']) none true = .error .indexError) := by
  obtain ⟨h1, F, hi⟩ := load
  obtain ⟨s1, d, q1, q2⟩ := session_node_places reach F
    (stem := "R5.".toList) (e3 := "SIU".toList) rfl rfl (by decide) hi (by decide +kernel)
    Load.Demo.meshFile Load.Demo.valid (.inr Load.Demo.setsFile) Load.Demo.chosen
    (els := [⟨6, 15, [2, 3]⟩]) (.cons rfl .nil) (by simp) (ns := [1, 2]) rfl "displacement" 1 .all
  obtain ⟨o, q3, -, q4, -⟩ := q2 _ (.closeFile 7 (by decide) .refl)
  exact ⟨s1, d, o, q1, q3, q4⟩

/-- C84: the byte string `b'A'`, alone and after `'A'` -/
example : ∃ s1 d o, openSif iter 3 num cplx Dec.std 10000 start "R5.SIU".toList = (s1, .ok d) ∧
    struc num (closeFile s1 7) d = .ok o ∧
    getElements o (.bytes ['A']) none false = .error .nameError ∧
    getElementNumbers o (.bytes ['A']) none "external" = .error .nameError := by
  obtain ⟨h1, F, hi⟩ := load
  obtain ⟨s1, d, q1, q2⟩ := session_bytes reach F
    (stem := "R5.".toList) (e3 := "SIU".toList) rfl rfl (by decide) hi (by decide +kernel)
    Load.Demo.meshFile Load.Demo.setsFile
  obtain ⟨o, q3, -, q4, -⟩ := q2 _ (.closeFile 7 (by decide) .refl)
  obtain ⟨h1, h2, -⟩ := q4 (.bytes ['A']) [] .nameError none false "external" 0 .none 1
    (.alone (by simp)) (.name (by simp)) (.inr rfl)
  exact ⟨s1, d, o, q1, q3, h1, h2⟩

/-- C50: a position that is not known: the beam has no result for it -/
example := fun (h1 : H5)
    (F : SesamFile Dec.std start.conv "/b/R5.SIU".toList "/b/".toList "R5.SIU".toList []
      'R' "5".toList "SIU".toList (75 :: Parse.Demo.bytes beamFile) [] beamFile beamNames 5 "R5"
      "FIRSTLEVEL" "STRUCTURAL" {} h1 h1 []) (hi : Enumerates h1 (iter h1)) =>
  session_element_refused reach F
    (stem := "R5.".toList) (e3 := "SIU".toList) rfl rfl (by decide) hi (by decide +kernel)
    Demo2.meshFile Demo2.valid (.inl Demo2.noSets) Demo2.chosen Demo2.forceFile
    Demo2.refs (run := 1) (rescases := .all)
    (fun r hr => by rw [Demo2.wanted.mp hr]) oneCase (by simp) (kept := [beamRec])
    (.keep ⟨⟨_, Demo2.wanted.mpr rfl, rfl⟩, 0, by simp, rfl⟩ .nil) 0 "middle"

end Verif.Session.WholeDemo
