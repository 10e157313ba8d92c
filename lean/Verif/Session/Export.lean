import Verif.Session.Whole
import Verif.Export.Results
/-!
# From results files on disk to VTU files (property theorems)

`/repo/examples/struc_example.py`: the calls `open_sif`, `get_nodes`, `get_elements`,
`get_noderesults`, `new_piece`, `start_pointdata`, `add_data`, `close`.
-/

namespace Verif.Session
open Verif Verif.Seq Verif.Parse Verif.Conv Verif.Data Verif.Data.Life Verif.Data.Load Verif.Export
open Verif.Vtu (ends vtkResOrder)

section
variable {K V : Type} [Field K] [LinearOrder K] {iter : H5 → List (String × List String)} {pi : K}
  {num : PyF → K} {cplx : PyF → PyF → V} {D : Dec} {B : Nat}
variable {filename dir fname fp : Seq.Str} {l : Char} {no ext : Seq.Str} {b : Bytes}
  {f : List LRec} {names : List String} {t : Int} {n : String} {h1 h2 : H5} {ms : List Seq.Str}
  {s : State} {stem e3 : Seq.Str}

/-- **C71** From the bytes of the results file to the text of the VTU file, node results: the piece
shows the selected elements of the mesh in the file, and the point data of each point are the first
`cols` values of the record of the result case and of the node of that point.  The getters may be
called with any other calls in between that do not close the File. -/
theorem session_export_node_results (hs : Reachable iter pi num cplx D B s)
    (F : SesamFile D s.conv filename dir fname fp l no ext b fp f names t n "FIRSTLEVEL"
      "STRUCTURAL" {} h1 h2 ms)
    (hstem : fname = stem ++ e3) (he3 : e3.length = 3)
    (hfree : stem ++ "h5".toList ∉ s.conv.memory ++ s.conv.leaked) (hi : Enumerates h2 (iter h2))
    (hno : no = (toString t).toList)
    {m : Mesh K} (hm : MeshFile num f m) (hval : Valid m)
    {sets : SetsArg} (hsets : NoSets sets ∨ SetsFile f m) {kind : Option String} {es : List Nat}
    (hch : Chosen m sets kind es) {els : List Element} (hl : Elements m es els) (hne : els ≠ [])
    {disc : Bool} {ns : List Nat} (hn : ChosenNodes m sets kind els disc ns)
    (hdisc : disc = false ∨ ¬ NoSelection sets kind ∨ AllUsed m els)
    (hnodes : ∀ el ∈ els, nodesOf el.typ = some el.nodes.length) {e e' : Enc K} (he : e.Ok)
    (he' : e'.Ok) {tc tf : IntType} (tt : IntType) (htc : tc.Ok) (htf : tf.Ok)
    (hbig : ns.length < 2 ^ 56) (hbig' : (els.flatMap Element.nodes).length < 2 ^ 56)
    (hfit : ns.length ≤ 256 ^ tc.itemsize)
    (hfit' : (els.flatMap Element.nodes).length < 256 ^ tf.itemsize)
    {restype : String} {rs : List (CaseRes K)} {c : CaseRes K} (hres : NodeResFile num f m restype rs)
    {refs : List ResRef} (hrefs : Describes IsRef (recordsOf "RDRESREF" f) (some refs)) {run : Int}
    {rescases : CasesArg} (hflag : ∀ r, Data.Wanted refs run rescases r → r.icompl = 0)
    (hpick : Picked refs run rescases rs [c])
    (hall : ∀ r, Data.Wanted refs run rescases r → ∃ c ∈ rs, c.ires = r.ires)
    (hkind : ∀ v ∈ c.values, ∀ x ∈ v, OfKind 0 x) {cols : Nat} (hcols : cols ≤ 6)
    (name : Vtu.Str) (comps : List Vtu.Str) (fuel : Nat) (index : Int) :
    ∃ s1 d elems coords res p a out, openSif iter pi num cplx D B s filename = (s1, .ok d) ∧
      (∀ s2, Spares iter pi num cplx D B s.life.files.length s1 s2 → ∃ o, struc num s2 d = .ok o ∧
        getElements o sets kind disc = .ok elems ∧
        getNodes o fuel sets kind disc .none index = .ok coords ∧
        getNodeResults o restype run rescases sets kind disc =
          .ok (.single (res.map (List.map Num.re)))) ∧
      Written (exportCalls (pieceCall e tc tf tt coords elems)
        [.addData (rowsArr e' cols (columns cols res)) name comps]) out ∧
      Holds1 out p ∧ Shows e m els ns p ∧ p.sections = [⟨.point, [⟨a, name, comps⟩]⟩] ∧
      a.tail = [cols] ∧
      List.Forall₂ (fun n row => ∃ v : List K, c.values[n]? = some (v.map Num.re) ∧
        row = (v.take cols).flatMap e'.bytes) ns a.rows := by
  obtain ⟨s1, d, o, q1, -, -, -, -, -, hr, q2⟩ := session_object hs F hstem he3 hfree hi hno
  obtain ⟨elems, coords, res, p, a, out, r1, r2, r3, r4⟩ := export_node_results (hr.mesh m hm) hval
    (hsets.imp id (hr.sets m)) hch hl hne hn hm.someNode hdisc hnodes he he' (tt := tt) htc htf hbig
    hbig' hfit hfit' (hr.nodeRes m restype rs hres) (hr.refs _ hrefs) hflag hpick hall hkind hcols
    name comps fuel index
  exact ⟨s1, d, elems, coords, res, p, a, out, q1, fun s2 hsp => ⟨o, q2 s2 hsp, r1, r2, r3⟩, r4⟩

/-- **C71** From the bytes of the results file to the text of the VTU file, element results: each
element has points of its own, and the point data are the rows obtained from the record of the
element, in the order of the points. -/
theorem session_export_element_results (hs : Reachable iter pi num cplx D B s)
    (F : SesamFile D s.conv filename dir fname fp l no ext b fp f names t n "FIRSTLEVEL"
      "STRUCTURAL" {} h1 h2 ms)
    (hstem : fname = stem ++ e3) (he3 : e3.length = 3)
    (hfree : stem ++ "h5".toList ∉ s.conv.memory ++ s.conv.leaked) (hi : Enumerates h2 (iter h2))
    (hno : no = (toString t).toList)
    {m : Mesh K} (hm : MeshFile num f m) (hval : Valid m)
    {sets : SetsArg} (hsets : NoSets sets ∨ SetsFile f m) {restype kind : String} {es : List Nat}
    (hch : Chosen m sets (some kind) es) {els : List Element} (hl : Elements m es els)
    (hne : els ≠ []) {ns : List Nat} (hn : ChosenNodes m sets (some kind) els true ns) {k : Nat}
    (hk16 : k ≤ 16) (hnodes : ∀ el ∈ els, nodesOf el.typ = some el.nodes.length)
    (hdims : ∀ el ∈ els, dimsOf restype el.typ = some [k]) {recs : List (ElemRec K)}
    (hres : ElemResFile num f restype kind storedReal recs) {refs : List ResRef}
    (hrefs : Describes IsRef (recordsOf "RDRESREF" f) (some refs)) {run : Int} {rescases : CasesArg}
    (hflag : ∀ r, Data.Wanted refs run rescases r → r.icompl = 0) {c : Int}
    (hcs : CaseNumbers refs run rescases [c]) {rs : List (ElemRec K)}
    (hk : Data.Kept (Concerns refs run rescases es) recs rs) (hline : LinesUp m es rs) (s3 : K)
    {e e' : Enc K} (he : e.Ok) (he' : e'.Ok) {tc tf : IntType} (tt : IntType) (htc : tc.Ok)
    (htf : tf.Ok) (hbig : ns.length < 2 ^ 56) (hfit : ns.length ≤ 256 ^ tc.itemsize)
    (hfit' : ns.length < 256 ^ tf.itemsize) (name : Vtu.Str) (comps : List Vtu.Str) (fuel : Nat)
    (index : Int) :
    ∃ s1 d elems coords res bs p a out, openSif iter pi num cplx D B s filename = (s1, .ok d) ∧
      (∀ s2, Spares iter pi num cplx D B s.life.files.length s1 s2 → ∃ o, struc num s2 d = .ok o ∧
        getElements o sets (some kind) true = .ok elems ∧
        getNodes o fuel sets (some kind) true .none index = .ok coords ∧
        getElementResults s3 o restype "nodes" run rescases sets = .ok (.real res)) ∧
      Written (exportCalls (pieceCall e tc tf tt coords elems)
        [.addDataCellpoints (ndArr e' res) name comps]) out ∧
      Holds1 out p ∧ Shows e m els ns p ∧ p.sections = [⟨.point, [⟨a, name, comps⟩]⟩] ∧
      a.tail = [k] ∧
      List.Forall₂ (fun (r : ElemRec K) b =>
        processElem s3 r.typ restype "nodes" r.values = .ok (some b)) rs bs ∧
      a.rows = (List.zipWith (fun (el : Element) (b : Block K) =>
        (vtkResOrder el.typ.toNat b.rows).map fun r => r.flatMap e'.bytes) els bs).flatten ∧
      List.Forall₂ (fun (el : Element) (b : Block K) => b.rows.length = el.nodes.length) els bs := by
  obtain ⟨s1, d, o, q1, -, -, -, -, -, hr, q2⟩ := session_object hs F hstem he3 hfree hi hno
  obtain ⟨elems, coords, res, bs, p, a, out, r1, r2, r3, r4⟩ := export_element_results
    (hr.mesh m hm) hval (hsets.imp id (hr.sets m)) hch hl hne hn hk16 hnodes hdims
    (hr.elemRes K restype kind storedReal recs hres) (hr.refs _ hrefs) hflag hcs hk hline s3 he he'
    (tt := tt) htc htf hbig hfit hfit' name comps fuel index
  exact ⟨s1, d, elems, coords, res, bs, p, a, out, q1,
    fun s2 hsp => ⟨o, q2 s2 hsp, r1, r2, r3⟩, r4⟩

end

end Verif.Session
