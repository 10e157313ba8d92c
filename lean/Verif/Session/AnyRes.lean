import Verif.Session.Whole
import Verif.Data.AnyRes
/-!
# Results that are incomplete, in another order, or complex, in a session
-/

namespace Verif.Session
open Verif Verif.Seq Verif.Parse Verif.Conv Verif.Data Verif.Data.Life Verif.Data.Load

variable {K V : Type} [Field K] [LinearOrder K] {iter : H5 → List (String × List String)} {pi : K}
  {num : PyF → K} {cplx : PyF → PyF → V} {D : Dec} {B : Nat}
variable {filename dir fname fp : Str} {l : Char} {no ext : Str} {b : Bytes}
  {f : List LRec} {names : List String} {t : Int} {n lev dt : String} {h0 h1 h2 : H5} {ms : List Str}
  {s : State} {stem e3 : Str}

/-- **C83**: node results of a file on disk whatever its records are: from the bytes of the file,
over `open_sif` and any calls that do not close it. -/
theorem session_node_records (hs : Reachable iter pi num cplx D B s)
    (F : SesamFile D s.conv filename dir fname fp l no ext b fp f names t n "FIRSTLEVEL"
      "STRUCTURAL" {} h1 h2 ms)
    (hstem : fname = stem ++ e3) (he3 : e3.length = 3)
    (hfree : stem ++ "h5".toList ∉ s.conv.memory ++ s.conv.leaked) (hi : Enumerates h2 (iter h2))
    (hno : no = (toString t).toList)
    {m : Mesh K} (hm : MeshFile num f m) (hval : Valid m)
    {sets : SetsArg} (hsets : NoSets sets ∨ SetsFile f m) {kind : Option String} {es : List Nat}
    (hch : Chosen m sets kind es) {els : List Element} (hl : Elements m es els)
    (hne : els ≠ [] ∨ NoSelection sets kind) {ns : List Nat}
    (hn : ChosenNodes m sets kind els false ns)
    {restype : String} {recs kept : List (NodeRec K)} (hres : NodeRecFile num f restype recs)
    {refs : List ResRef} (hrefs : Describes IsRef (recordsOf "RDRESREF" f) (some refs)) {run : Int}
    {rescases : CasesArg} {flag : Int}
    (hflag : ∀ r, Data.Wanted refs run rescases r → r.icompl = flag) {cs : List Int}
    (hcs : CaseNumbers refs run rescases cs) (hcne : cs ≠ [])
    (hk : Data.Kept (ConcernsNode refs run rescases ns) recs kept) :
    ∃ s1 d, openSif iter pi num cplx D B s filename = (s1, .ok d) ∧
      ∀ s2, Spares iter pi num cplx D B s.life.files.length s1 s2 → ∃ o, struc num s2 d = .ok o ∧
        (∀ vs arrs, kept ≠ [] → Numbers flag (kept.flatMap NodeRec.values) vs →
          CutSix cs.length vs arrs →
          (∀ rows, arrs = [rows] →
            getNodeResults o restype run rescases sets kind false = .ok (.single rows)) ∧
          (arrs.length ≠ 1 →
            getNodeResults o restype run rescases sets kind false = .ok (.cases arrs))) ∧
        ((kept = [] ∨
            ¬ ∃ vs arrs, Numbers flag (kept.flatMap NodeRec.values) vs ∧ CutSix cs.length vs arrs) →
          getNodeResults o restype run rescases sets kind false = .error .valueError) := by
  obtain ⟨s1, d, o, q1, -, -, -, -, -, hr, q2⟩ := session_object hs F hstem he3 hfree hi hno
  exact ⟨s1, d, q1, fun s2 hsp => ⟨o, q2 s2 hsp, node_results_any (hr.mesh m hm) hval
    (hsets.imp id (hr.sets m)) hch hl hne hn (hr.nodeRecs restype recs hres) (hr.refs _ hrefs) hflag
    hcs hcne hk⟩⟩

/-- **C83**: element results (real) of a file on disk, of records of the same axes, complete or not,
in any order. -/
theorem session_element_records (hs : Reachable iter pi num cplx D B s)
    (F : SesamFile D s.conv filename dir fname fp l no ext b fp f names t n "FIRSTLEVEL"
      "STRUCTURAL" {} h1 h2 ms)
    (hstem : fname = stem ++ e3) (he3 : e3.length = 3)
    (hfree : stem ++ "h5".toList ∉ s.conv.memory ++ s.conv.leaked) (hi : Enumerates h2 (iter h2))
    (hno : no = (toString t).toList)
    {m : Mesh K} (hm : MeshFile num f m) (hval : Valid m)
    {sets : SetsArg} (hsets : NoSets sets ∨ SetsFile f m) {restype kind : String} {es : List Nat}
    (hch : Chosen m sets (some kind) es) {recs kept : List (ElemRec K)}
    (hres : ElemResFile num f restype kind storedReal recs) {refs : List ResRef}
    (hrefs : Describes IsRef (recordsOf "RDRESREF" f) (some refs)) {run : Int} {rescases : CasesArg}
    (hflag : ∀ r, Data.Wanted refs run rescases r → r.icompl = 0) {cs : List Int}
    (hcs : CaseNumbers refs run rescases cs) (hcne : cs ≠ [])
    (hk : Data.Kept (Concerns refs run rescases es) recs kept) (hsome : kept ≠ []) {s3 : K}
    {pos : String} {bs : List (Block K)}
    (hb : List.Forall₂ (fun (e : ElemRec K) b =>
      processElem s3 e.typ restype pos e.values = .ok (some b)) kept bs)
    {dims : List Nat} (hdims : ∀ b ∈ bs, b.dims = dims) (hfit : AxesFit restype dims) :
    ∃ s1 d, openSif iter pi num cplx D B s filename = (s1, .ok d) ∧
      ∀ s2, Spares iter pi num cplx D B s.life.files.length s1 s2 → ∃ o, struc num s2 d = .ok o ∧
        (∀ p, (bs.flatMap Block.rows).length = cs.length * p →
          getElementResults s3 o restype pos run rescases sets = .ok (.real
            ⟨if cs.length = 1 then p :: dims else cs.length :: p :: dims,
              (bs.flatMap Block.rows).flatten⟩)) ∧
        (¬ cs.length ∣ (bs.flatMap Block.rows).length →
          getElementResults s3 o restype pos run rescases sets = .error .valueError) := by
  obtain ⟨s1, d, o, q1, -, -, -, -, -, hr, q2⟩ := session_object hs F hstem he3 hfree hi hno
  exact ⟨s1, d, q1, fun s2 hsp => ⟨o, q2 s2 hsp, element_results_any (hr.mesh m hm) hval
    (hsets.imp id (hr.sets m)) hch (hr.elemRes K restype kind storedReal recs hres) (hr.refs _ hrefs)
    hflag hcs hcne hk hsome hb hdims hfit⟩⟩

end Verif.Session
