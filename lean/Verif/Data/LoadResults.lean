import Verif.Data.LoadProps
import Verif.Data.ResProps
import Verif.Data.ElemResProps
import Verif.Data.NamesProps
/-!
# Results, sections and names from the bytes of the file
-/

namespace Verif.Data.Load
open Verif Verif.Data Verif.Parse Verif.Seq

variable {K : Type}
variable {sk : LRec → Bool} {e0 : Int → Option Int}
  {f : List LRec} {outs : List Added} {names : List String} {pl : Place} {s : Int} {h0 : H5}
  {lev dt : String} {ix : Option (Option Int)} {D : Dec} {st : St} {src : Source}

/-- **C58**: Node results from the bytes of the file: for each wanted result case, in the order of
the file, and each node of the selection the six values of the record of that case and that node. -/
theorem file_to_node_results [Semiring K] (j : Job none sk e0 f outs names pl s h0 lev dt ix)
    (hclean : Clean pl e0 h0 st) (B : Nat) (henc : Encoded D sk f src)
    (hlev : lev = "FIRSTLEVEL") {num : PyF → K} {m : Mesh K} (hm : MeshFile num f m) (hval : Valid m)
    {sets : SetsArg} (hs : NoSets sets ∨ SetsFile f m) {kind : Option String} {es : List Nat}
    (hch : Chosen m sets kind es) {l : List Element} (hl : Elements m es l)
    (hne : l ≠ [] ∨ NoSelection sets kind) {disc : Bool} {ns : List Nat}
    (hn : ChosenNodes m sets kind l disc ns)
    (hdisc : disc = false ∨ l ≠ [] ∧ (¬ NoSelection sets kind ∨ AllUsed m l))
    {restype : String} {rs picked : List (CaseRes K)} (hres : NodeResFile num f m restype rs)
    {refs : List ResRef} (hrefs : Describes IsRef (recordsOf "RDRESREF" f) (some refs)) {run : Int}
    {rescases : CasesArg} {flag : Int} (hflag : ∀ r, Wanted refs run rescases r → r.icompl = flag)
    (hpick : Picked refs run rescases rs picked)
    (hall : ∀ r, Wanted refs run rescases r → ∃ c ∈ rs, c.ires = r.ires)
    (hkind : ∀ c ∈ picked, ∀ v ∈ c.values, ∀ x ∈ v, OfKind flag x) (hsome : picked ≠ []) :
    ∃ st' d arrs, parseSource D B none st src = .ok st' ∧
      loadStruc num st'.h5 (pl.path s) = .ok d ∧
      List.Forall₂ (fun c rows => RowsOf c ns rows) picked arrs ∧
      (∀ rows, arrs = [rows] →
        getNodeResults d restype run rescases sets kind disc = .ok (.single rows)) ∧
      (arrs.length ≠ 1 →
        getNodeResults d restype run rescases sets kind disc = .ok (.cases arrs)) := by
  obtain ⟨st', d, h1, h2, -, -, -, -, -, hr⟩ := file_to_object j hclean B henc hlev num
  obtain ⟨arrs, h3⟩ := node_results_line_up_partial (hr.mesh m hm) hval (hs.imp id (hr.sets m)) hch
    hl hne hn hm.someNode hdisc (hr.nodeRes m restype rs hres) (hr.refs _ hrefs) hflag hpick hall
    hkind hsome
  exact ⟨st', d, arrs, h1, h2, h3⟩

/-- **C58**: Element results from the bytes of the file (real results): for each wanted result case
and each selected element the rows obtained from that element's own record, one for each node. -/
theorem file_to_element_results [Field K] (j : Job none sk e0 f outs names pl s h0 lev dt ix)
    (hclean : Clean pl e0 h0 st) (B : Nat) (henc : Encoded D sk f src)
    (hlev : lev = "FIRSTLEVEL") {num : PyF → K} {m : Mesh K} (hm : MeshFile num f m) (hval : Valid m)
    {sets : SetsArg} (hs : NoSets sets ∨ SetsFile f m) {restype kind : String} {es : List Nat}
    (hch : Chosen m sets (some kind) es) {l : List Element} (hl : Elements m es l) (hne : l ≠ [])
    {dims : List Nat} (hnodes : ∀ e ∈ l, nodesOf e.typ = some e.nodes.length)
    (hdims : ∀ e ∈ l, dimsOf restype e.typ = some dims) {recs : List (ElemRec K)}
    (hres : ElemResFile num f restype kind storedReal recs) {refs : List ResRef}
    (hrefs : Describes IsRef (recordsOf "RDRESREF" f) (some refs)) {run : Int} {rescases : CasesArg}
    (hflag : ∀ r, Wanted refs run rescases r → r.icompl = 0) {cs : List Int}
    (hcs : CaseNumbers refs run rescases cs) (hcne : cs ≠ []) {css : List (List (ElemRec K))}
    (hk : Kept (Concerns refs run rescases es) recs css.flatten) (hcl : css.length = cs.length)
    (hline : ∀ c ∈ css, LinesUp m es c) (s3 : K) :
    ∃ st' d bss, parseSource D B none st src = .ok st' ∧
      loadStruc num st'.h5 (pl.path s) = .ok d ∧
      List.Forall₂ (List.Forall₂ fun (r : ElemRec K) b =>
        processElem s3 r.typ restype "nodes" r.values = .ok (some b)) css bss ∧
      (∀ bs ∈ bss, List.Forall₂ (fun (e : Element) (b : Block K) => b.dims = dims ∧
        b.rows.length = e.nodes.length ∧ ∀ r ∈ b.rows, r.length = dims.prod) l bs) ∧
      getElementResults s3 d restype "nodes" run rescases sets = .ok (.real
        ⟨if cs.length = 1 then (l.flatMap Element.nodes).length :: dims
          else cs.length :: (l.flatMap Element.nodes).length :: dims,
         (bss.flatten.flatMap Block.rows).flatten⟩) := by
  obtain ⟨st', d, h1, h2, -, -, -, -, -, hr⟩ := file_to_object j hclean B henc hlev num
  obtain ⟨bss, h3⟩ := element_results_real_partial (hr.mesh m hm) hval (hs.imp id (hr.sets m)) hch
    hl hne hnodes hdims (hr.elemRes K restype kind storedReal recs hres) (hr.refs _ hrefs) hflag hcs
    hcne hk hcl hline s3
  exact ⟨st', d, bss, h1, h2, h3⟩

/-- **C58**: Sections and thicknesses from the bytes of the file -/
theorem file_to_sections (j : Job none sk e0 f outs names pl s h0 lev dt ix)
    (hclean : Clean pl e0 h0 st) (B : Nat) (henc : Encoded D sk f src)
    (hlev : lev = "FIRSTLEVEL") {num : PyF → K} {m : Mesh K} (hm : MeshFile num f m) (hval : Valid m)
    {sets : SetsArg} (hs : NoSets sets ∨ SetsFile f m) {geos : List Int}
    (hg : Describes IsGeo (recordsOf "GELREF1" f) (some geos)) :
    ∃ st' d, parseSource D B none st src = .ok st' ∧
      loadStruc num st'.h5 (pl.path s) = .ok d ∧
      (∀ es gs rows out, Chosen m sets (some "beam") es → Geometries geos es gs →
        Describes (IsBeam num) (recordsOf "GBEAMG" f) (some rows) →
        List.Forall₂ (LastRow rows) gs out → getSectionProperties d sets = .ok (gs.zip out)) ∧
      (∀ es gs rows out, Chosen m sets (some "shell") es → Geometries geos es gs →
        Describes (IsThick num) (recordsOf "GELTH" f) (some rows) →
        List.Forall₂ (LastRow rows) gs out → getShellThicknesses d sets = .ok out) := by
  obtain ⟨st', d, h1, h2, -, -, -, -, -, hr⟩ := file_to_object j hclean B henc hlev num
  refine ⟨st', d, h1, h2, ?_, ?_⟩
  · intro es gs rows out hch hgs hrows ho
    exact sections_found (hr.mesh m hm) hval (hs.imp id (hr.sets m)) hch (hr.geo _ hg)
      (hr.beams _ hrows) hgs ho
  · intro es gs rows out hch hgs hrows ho
    exact thicknesses_found (hr.mesh m hm) hval (hs.imp id (hr.sets m)) hch (hr.geo _ hg)
      (hr.thick _ hrows) hgs ho

/-- **C57**: Names of sets and of load cases from the bytes of the file -/
theorem file_to_names (j : Job none sk e0 f outs names pl s h0 lev dt ix)
    (hclean : Clean pl e0 h0 st) (B : Nat) (henc : Encoded D sk f src)
    (hlev : lev = "FIRSTLEVEL") (num : PyF → K) :
    ∃ st' d, parseSource D B none st src = .ok st' ∧
      loadStruc num st'.h5 (pl.path s) = .ok d ∧
      (∀ m : Mesh K, SetsFile f m → getSetNames d = .ok (some (m.names.map Prod.fst))) ∧
      (recordsOf "TDSETNAM" f = [] → getSetNames d = .ok none) ∧
      (∀ rows, rows ≠ [] → List.Forall₂ IsName (recordsOf "TDLOAD" f) rows → ∀ rescases,
        ∃ out, getResultcaseNames d rescases = .ok out ∧ (out.map Prod.fst).Nodup ∧
          ∀ n t, (n, t) ∈ out ↔ Asked rescases n ∧ LastRow (rows.map fun r => (r.2, r.1)) n t) ∧
      (recordsOf "TDLOAD" f = [] → ∀ rescases,
        getResultcaseNames d rescases = .error .noSuchRecord) := by
  obtain ⟨st', d, h1, h2, ho, -, -, -, -, hr⟩ := file_to_object j hclean B henc hlev num
  refine ⟨st', d, h1, h2, fun m hm => ?_, fun hno => (set_names ho).2 (hr.noSets hno), ?_, ?_⟩
  · rw [(set_names ho).1 _ (hr.sets m hm).names, List.map_map]
    rfl
  · intro rows hne hrows rescases
    have := hr.loads (some (rows.map fun p => ⟨p.2, p.1⟩)) ⟨by simpa using hne, by
      rw [List.forall₂_map_right_iff]; exact hrows⟩
    obtain ⟨out, q1, q2, q3, -⟩ := (resultcase_names ho rescases).1 _ this
    refine ⟨out, q1, q2, fun n t => ?_⟩
    rw [q3, List.map_map]
    rfl
  · intro hno rescases
    exact (resultcase_names ho rescases).2 (hr.loads none hno)

end Verif.Data.Load
