import Verif.Session.Closing
import Verif.Data.LoadResults
/-!
# What objects give in a session, whatever else is called (property theorems)

From the bytes of the file on disk, over `open_sif`, any other calls, to the results of the getters.
-/

namespace Verif.Session
open Verif Verif.Seq Verif.Parse Verif.Conv Verif.Data Verif.Data.Life Verif.Data.Load

section
variable {K V : Type} [Field K] [LinearOrder K] {iter : H5 → List (String × List String)} {pi : K}
  {num : PyF → K} {cplx : PyF → PyF → V} {D : Dec} {B : Nat}

/-- Any calls that do not close File `g`: opening and converting files, closing other Files and
objects of other Files; the current directory and the files that are read may change as well. -/
inductive Spares (iter : H5 → List (String × List String)) (pi : K) (num : PyF → K)
    (cplx : PyF → PyF → V) (D : Dec) (B : Nat) (g : Nat) (s : State) : State → Prop
  | refl : Spares iter pi num cplx D B g s s
  | openHdf5 {s'} (filename : Str) : Spares iter pi num cplx D B g s s' →
      Spares iter pi num cplx D B g s (openHdf5 iter pi num cplx s' filename).1
  | openSif {s'} (filename : Str) : Spares iter pi num cplx D B g s s' →
      Spares iter pi num cplx D B g s (openSif iter pi num cplx D B s' filename).1
  | convert {s'} (o : Options) (arg : SifArg) (pre : PrefixArg) :
      Spares iter pi num cplx D B g s s' →
      Spares iter pi num cplx D B g s (convert D B o s' arg pre).1
  | elsewhere {s'} (dir : Str) (disk : Str → Option Bytes) : Spares iter pi num cplx D B g s s' →
      Spares iter pi num cplx D B g s { s' with conv := { s'.conv with cwd := dir ++ ['/'], disk := disk } }
  | closeFile {s'} (k : Nat) : k ≠ g → Spares iter pi num cplx D B g s s' →
      Spares iter pi num cplx D B g s (closeFile s' k)
  | closeData {s'} (d : Nat) : (∀ l, items s'.life g = .ok l → d ∉ l.map (·.2)) →
      Spares iter pi num cplx D B g s s' → Spares iter pi num cplx D B g s (closeData s' d)

theorem Spares.steps {g : Nat} {s s' : State} (h : Spares iter pi num cplx D B g s s') :
    Steps iter pi num cplx D B s s' := by
  induction h with
  | refl => exact .refl _
  | openHdf5 _ _ ih => exact .snoc ih (.openHdf5 _ _)
  | openSif _ _ ih => exact .snoc ih (.openSif _ _)
  | convert _ _ _ _ ih => exact .snoc ih (.convert _ _ _ _)
  | elsewhere _ _ _ ih => exact .snoc ih (.elsewhere _ _ _)
  | closeFile _ _ _ ih => exact .snoc ih (.closeFile _ _)
  | closeData _ _ _ ih => exact .snoc ih (.closeData _ _)

/-- the objects made by opening a File do not touch the others -/
theorem items_opened (s : State) (name : Origin) (h : H5) {g : Nat} {lst : List (String × Nat)}
    (hl : items s.life g = .ok lst) :
    items (openTables iter pi num cplx s name h).1.life g = .ok lst ∧
    ∀ p ∈ lst, dataOpen s.life p.2 = true →
      dataOpen (openTables iter pi num cplx s name h).1.life p.2 = true := by
  obtain ⟨-, -, gs, e3⟩ := openTables_life (iter := iter) (pi := pi) (num := num) (cplx := cplx) s
    name h
  rw [e3]
  unfold openFile
  split
  · constructor
    · unfold items at hl ⊢
      cases hf : s.life.files[g]? with
      | none => rw [hf] at hl; cases hl
      | some x =>
        rw [hf] at hl
        dsimp only
        rw [get_append_of_some hf]
        exact hl
    · intro p _ ho
      unfold dataOpen at ho ⊢
      cases hd : s.life.datas[p.2]? with
      | none => rw [hd] at ho; cases ho
      | some x =>
        rw [hd] at ho
        dsimp only
        rw [get_append_of_some hd]
        exact ho
  · exact ⟨hl, fun _ _ h => h⟩

/-- **C70** As long as the File is not closed, it holds the same objects, and they are open. -/
theorem spared_open {s s' : State} (hs : Reachable iter pi num cplx D B s) {g : Nat}
    {lst : List (String × Nat)} (hl : items s.life g = .ok lst)
    (h : Spares iter pi num cplx D B g s s') :
    items s'.life g = .ok lst ∧ ∀ p ∈ lst, dataOpen s'.life p.2 = true := by
  suffices hi : items s'.life g = .ok lst from
    ⟨hi, (open_file (inv_of (reach_steps hs h.steps)).life hi).1⟩
  induction h with
  | refl => exact hl
  | openHdf5 filename h ih =>
    unfold openHdf5
    split
    · exact (items_opened _ _ _ ih).1
    · split
      · exact ih
      · exact (items_opened _ _ _ ih).1
    · exact ih
  | @openSif s' filename h ih =>
    unfold openSif
    split
    · split
      · exact ih
      · split
        · rename_i nm h0 cw _ _ m _ _ s'' f he
          have := (items_opened (iter := iter) (pi := pi) (num := num) (cplx := cplx)
            { s' with conv := cw } (.memory nm) h0 (g := g) (lst := lst) ih).1
          rw [he] at this
          exact this
        · rename_i nm h0 cw _ _ m _ _ s'' f he
          have := (items_opened (iter := iter) (pi := pi) (num := num) (cplx := cplx)
            { s' with conv := cw } (.memory nm) h0 (g := g) (lst := lst) ih).1
          rw [he] at this
          exact this
    · exact ih
    · exact ih
  | convert o arg pre h ih => exact ih
  | elsewhere dir disk h ih => exact ih
  | closeFile k hk h ih =>
    exact (others_unaffected (inv_of (reach_steps hs h.steps)).life (Ne.symm hk) ih).1
  | @closeData s' d hd h ih =>
    have r := (inv_of (reach_steps hs h.steps)).life
    show items (Life.closeData s'.life d) g = .ok lst
    cases ho : dataOpen s'.life d with
    | false => rw [close_data_idempotent ho]; exact ih
    | true =>
      obtain ⟨k, l, h1, h2, h3⟩ := close_via_data r ho
      rw [h3]
      refine (others_unaffected r ?_ ih).1
      rintro rfl
      exact hd l h1 h2

/-- **C70** An object of a File that is not closed stays what it is: its class, its group and the
contents of the group. -/
theorem object_stays {s s' : State} (hs : Reachable iter pi num cplx D B s) {g d : Nat} {c : Cls}
    {h : H5} {p : Path} (ho : IsObject s g d c h p) (hsp : Spares iter pi num cplx D B g s s') :
    IsObject s' g d c h p := by
  have gs := inv_reachable (inv_of hs).life
  have kp := kept_steps hs hsp.steps
  -- objects listed by the File are as before
  have same : ∀ (e : Nat) c' q o, s.life.datas[e]? = some (.opened c' q o) →
      Chain s.life.datas e g → s'.life.datas[e]? = some (.opened c' q o) := by
    intro e c' q o he hch
    obtain ⟨f, lst, k, hf, hin⟩ := gs.listed e c' q o he
    obtain ⟨r, hr, rfl⟩ := List.mem_map.mp hin
    have hfg := chain_unique (gs.chain f lst k hf r hr) hch
    subst hfg
    have hit : items s.life f = .ok lst := by
      unfold items
      rw [hf]
    have hop := (spared_open hs hit hsp).2 r hr
    rcases kp.datas r.2 _ he with h1 | h1
    · exact h1
    · unfold dataOpen at hop
      rw [h1] at hop
      cases hop
  obtain ⟨⟨key, o, h1, h2⟩, h3⟩ := ho
  have hch : Chain s.life.datas d g := by
    rcases h2 with rfl | ⟨d', c', key', rfl, h4⟩
    · exact .inl ⟨c, key, h1⟩
    · exact .inr ⟨c, key, d', c', key', h1, h4⟩
  have hd := same d c key o h1 hch
  refine ⟨⟨key, o, hd, ?_⟩, ?_⟩
  · rcases h2 with rfl | ⟨d', c', key', rfl, h4⟩
    · exact .inl rfl
    · exact .inr ⟨d', c', key', rfl, same d' c' key' _ h4 (.inl ⟨c', key', h4⟩)⟩
  · rw [(object_reads_same hs hsp.steps (List.getElem?_eq_some_iff.mp h1).1 (by
      unfold dataOpen
      rw [hd])).1]
    exact h3

/-! ### getters -/

variable {filename dir fname fp : Str} {l : Char} {no ext : Str} {b : Bytes}
  {f : List LRec} {names : List String} {t : Int} {n lev dt : String} {h0 h1 h2 : H5} {ms : List Str}
  {s : State} {stem e3 : Str}

/-- **C70** The object that `open_sif` returns for a file of a first level superelement has what the
file describes, after any calls that do not close it. -/
theorem session_object (hs : Reachable iter pi num cplx D B s)
    (F : SesamFile D s.conv filename dir fname fp l no ext b fp f names t n "FIRSTLEVEL"
      "STRUCTURAL" {} h1 h2 ms)
    (hstem : fname = stem ++ e3) (he3 : e3.length = 3)
    (hfree : stem ++ "h5".toList ∉ s.conv.memory ++ s.conv.leaked) (hi : Enumerates h2 (iter h2))
    (hno : no = (toString t).toList) :
    ∃ s1 d o, openSif iter pi num cplx D B s filename = (s1, .ok d) ∧ o.isOpen = true ∧
      o.toplevel = none ∧ o.filetype = String.ofList [l] ∧ o.seltyp = t ∧
      Once names o.recNames ∧ Reads num f o ∧
      ∀ s2, Spares iter pi num cplx D B s.life.files.length s1 s2 → struc num s2 d = .ok o := by
  obtain ⟨s', d, q1, q2, q3⟩ := open_sif_object hs F hstem he3 hfree hi hno F.class_first
  obtain ⟨sk, outs, ix, henc, j, c, hw⟩ := F.records
  obtain ⟨o, l1, l2, l0, l3, l4, l5, l6⟩ := loads_struc j c rfl num
  simp only [Place.path] at l1
  rw [← F.group, ← loadStruc_congr F.same.1] at l1
  refine ⟨s', d, o, q1, l2, l0, l3, l4, l5, l6, ?_⟩
  intro s2 hsp
  have r' : Reachable iter pi num cplx D B s' := by
    have := Reachable.step hs (.openSif s filename)
    rw [q1] at this
    exact this
  unfold struc
  rw [(object_stays r' q3 hsp).group]
  exact l1

/-- **C70** Mesh: from the bytes of the file, over `open_sif` and any calls that do not close it, to
the arrays: for any selection of elements by the sets and element types of the file, the entries of
the connectivity lead to the coordinates given in the file for the nodes of the elements. -/
theorem session_mesh (hs : Reachable iter pi num cplx D B s)
    (F : SesamFile D s.conv filename dir fname fp l no ext b fp f names t n "FIRSTLEVEL"
      "STRUCTURAL" {} h1 h2 ms)
    (hstem : fname = stem ++ e3) (he3 : e3.length = 3)
    (hfree : stem ++ "h5".toList ∉ s.conv.memory ++ s.conv.leaked) (hi : Enumerates h2 (iter h2))
    (hno : no = (toString t).toList)
    {m : Mesh K} (hm : MeshFile num f m) (hval : Valid m)
    {sets : SetsArg} (hsets : NoSets sets ∨ SetsFile f m) {kind : Option String} {es : List Nat}
    (hch : Chosen m sets kind es) {els : List Element} (hl : Elements m es els)
    (hne : els ≠ [] ∨ NoSelection sets kind) {disc : Bool} {ns : List Nat}
    (hn : ChosenNodes m sets kind els disc ns) (fuel : Nat) (index : Int) :
    ∃ s1 d con offs coords, openSif iter pi num cplx D B s filename = (s1, .ok d) ∧
      (∀ s2, Spares iter pi num cplx D B s.life.files.length s1 s2 → ∃ o, struc num s2 d = .ok o ∧
        getElements o sets kind disc = .ok (con, offs, els.map Element.typ) ∧
        getNodes o fuel sets kind disc .none index = .ok coords) ∧
      List.Forall₂ (fun n p => (m.nodes[n]?).map Node.pos = some p) ns coords ∧
      Ends 0 els offs ∧
      List.Forall₂ (fun (c : Int) n => ∃ (k : Nat) (node : Node K), c = k ∧
        m.nodes[n - 1]? = some node ∧ coords[k]? = some node.pos)
        con (els.flatMap Element.nodes) := by
  obtain ⟨s1, d, o, q1, -, -, -, -, -, hr, q2⟩ := session_object hs F hstem he3 hfree hi hno
  have hd := hr.mesh m hm
  have hs' : NoSets sets ∨ HoldsSets o m := hsets.imp id (hr.sets m)
  obtain ⟨con, offs, typs, coords, h3, h4, h5, h6⟩ :=
    connectivity_fits hd hval hs' hch hl hne hn fuel index
  obtain ⟨con', offs', h7, h8, -⟩ := offsets_delimit hd hval hs' hch hl hne hn
  rw [h3] at h7
  cases h7
  exact ⟨s1, d, con, offs, coords, q1, fun s2 hsp => ⟨o, q2 s2 hsp, h3, h4⟩, h5, h8, h6⟩

/-- **C70** Node results: for each wanted result case, in the order of the file, and each node of
the selection the six values of the record of that case and that node. -/
theorem session_node_results (hs : Reachable iter pi num cplx D B s)
    (F : SesamFile D s.conv filename dir fname fp l no ext b fp f names t n "FIRSTLEVEL"
      "STRUCTURAL" {} h1 h2 ms)
    (hstem : fname = stem ++ e3) (he3 : e3.length = 3)
    (hfree : stem ++ "h5".toList ∉ s.conv.memory ++ s.conv.leaked) (hi : Enumerates h2 (iter h2))
    (hno : no = (toString t).toList)
    {m : Mesh K} (hm : MeshFile num f m) (hval : Valid m)
    {sets : SetsArg} (hsets : NoSets sets ∨ SetsFile f m) {kind : Option String} {es : List Nat}
    (hch : Chosen m sets kind es) {els : List Element} (hl : Elements m es els)
    (hne : els ≠ [] ∨ NoSelection sets kind) {disc : Bool} {ns : List Nat}
    (hn : ChosenNodes m sets kind els disc ns)
    (hdisc : disc = false ∨ els ≠ [] ∧ (¬ NoSelection sets kind ∨ AllUsed m els))
    {restype : String} {rs picked : List (CaseRes K)} (hres : NodeResFile num f m restype rs)
    {refs : List ResRef} (hrefs : Describes IsRef (recordsOf "RDRESREF" f) (some refs)) {run : Int}
    {rescases : CasesArg} {flag : Int}
    (hflag : ∀ r, Data.Wanted refs run rescases r → r.icompl = flag)
    (hpick : Picked refs run rescases rs picked)
    (hall : ∀ r, Data.Wanted refs run rescases r → ∃ c ∈ rs, c.ires = r.ires)
    (hkind : ∀ c ∈ picked, ∀ v ∈ c.values, ∀ x ∈ v, OfKind flag x) (hsome : picked ≠ []) :
    ∃ s1 d arrs, openSif iter pi num cplx D B s filename = (s1, .ok d) ∧
      List.Forall₂ (fun c rows => RowsOf c ns rows) picked arrs ∧
      ∀ s2, Spares iter pi num cplx D B s.life.files.length s1 s2 → ∃ o, struc num s2 d = .ok o ∧
        (∀ rows, arrs = [rows] →
          getNodeResults o restype run rescases sets kind disc = .ok (.single rows)) ∧
        (arrs.length ≠ 1 →
          getNodeResults o restype run rescases sets kind disc = .ok (.cases arrs)) := by
  obtain ⟨s1, d, o, q1, -, -, -, -, -, hr, q2⟩ := session_object hs F hstem he3 hfree hi hno
  obtain ⟨arrs, h3, h4, h5⟩ := node_results_line_up_partial (hr.mesh m hm) hval
    (hsets.imp id (hr.sets m)) hch hl hne hn hm.someNode hdisc (hr.nodeRes m restype rs hres)
    (hr.refs _ hrefs) hflag hpick hall hkind hsome
  exact ⟨s1, d, arrs, q1, h3, fun s2 hsp => ⟨o, q2 s2 hsp, h4, h5⟩⟩

/-- **C70** Element results (real): for each wanted result case and each selected element the rows
obtained from that element's own record, one for each node. -/
theorem session_element_results (hs : Reachable iter pi num cplx D B s)
    (F : SesamFile D s.conv filename dir fname fp l no ext b fp f names t n "FIRSTLEVEL"
      "STRUCTURAL" {} h1 h2 ms)
    (hstem : fname = stem ++ e3) (he3 : e3.length = 3)
    (hfree : stem ++ "h5".toList ∉ s.conv.memory ++ s.conv.leaked) (hi : Enumerates h2 (iter h2))
    (hno : no = (toString t).toList)
    {m : Mesh K} (hm : MeshFile num f m) (hval : Valid m)
    {sets : SetsArg} (hsets : NoSets sets ∨ SetsFile f m) {restype kind : String} {es : List Nat}
    (hch : Chosen m sets (some kind) es) {els : List Element} (hl : Elements m es els)
    (hne : els ≠ []) {dims : List Nat} (hnodes : ∀ e ∈ els, nodesOf e.typ = some e.nodes.length)
    (hdims : ∀ e ∈ els, dimsOf restype e.typ = some dims) {recs : List (ElemRec K)}
    (hres : ElemResFile num f restype kind storedReal recs) {refs : List ResRef}
    (hrefs : Describes IsRef (recordsOf "RDRESREF" f) (some refs)) {run : Int} {rescases : CasesArg}
    (hflag : ∀ r, Data.Wanted refs run rescases r → r.icompl = 0) {cs : List Int}
    (hcs : CaseNumbers refs run rescases cs) (hcne : cs ≠ []) {css : List (List (ElemRec K))}
    (hk : Data.Kept (Concerns refs run rescases es) recs css.flatten) (hcl : css.length = cs.length)
    (hline : ∀ c ∈ css, LinesUp m es c) (s3 : K) :
    ∃ s1 d bss, openSif iter pi num cplx D B s filename = (s1, .ok d) ∧
      List.Forall₂ (List.Forall₂ fun (r : ElemRec K) b =>
        processElem s3 r.typ restype "nodes" r.values = .ok (some b)) css bss ∧
      (∀ bs ∈ bss, List.Forall₂ (fun (e : Element) (b : Block K) => b.dims = dims ∧
        b.rows.length = e.nodes.length ∧ ∀ r ∈ b.rows, r.length = dims.prod) els bs) ∧
      ∀ s2, Spares iter pi num cplx D B s.life.files.length s1 s2 → ∃ o, struc num s2 d = .ok o ∧
        getElementResults s3 o restype "nodes" run rescases sets = .ok (.real
          ⟨if cs.length = 1 then (els.flatMap Element.nodes).length :: dims
            else cs.length :: (els.flatMap Element.nodes).length :: dims,
           (bss.flatten.flatMap Block.rows).flatten⟩) := by
  obtain ⟨s1, d, o, q1, -, -, -, -, -, hr, q2⟩ := session_object hs F hstem he3 hfree hi hno
  obtain ⟨bss, h3, h4, h5⟩ := element_results_real_partial (hr.mesh m hm) hval
    (hsets.imp id (hr.sets m)) hch hl hne hnodes hdims
    (hr.elemRes K restype kind storedReal recs hres) (hr.refs _ hrefs) hflag hcs hcne hk hcl hline s3
  exact ⟨s1, d, bss, q1, h3, h4, fun s2 hsp => ⟨o, q2 s2 hsp, h5⟩⟩

/-- **C70** Sections and thicknesses -/
theorem session_sections (hs : Reachable iter pi num cplx D B s)
    (F : SesamFile D s.conv filename dir fname fp l no ext b fp f names t n "FIRSTLEVEL"
      "STRUCTURAL" {} h1 h2 ms)
    (hstem : fname = stem ++ e3) (he3 : e3.length = 3)
    (hfree : stem ++ "h5".toList ∉ s.conv.memory ++ s.conv.leaked) (hi : Enumerates h2 (iter h2))
    (hno : no = (toString t).toList)
    {m : Mesh K} (hm : MeshFile num f m) (hval : Valid m)
    {sets : SetsArg} (hsets : NoSets sets ∨ SetsFile f m) {geos : List Int}
    (hg : Describes IsGeo (recordsOf "GELREF1" f) (some geos)) :
    ∃ s1 d, openSif iter pi num cplx D B s filename = (s1, .ok d) ∧
      ∀ s2, Spares iter pi num cplx D B s.life.files.length s1 s2 → ∃ o, struc num s2 d = .ok o ∧
      (∀ es gs rows out, Chosen m sets (some "beam") es → Geometries geos es gs →
        Describes (IsBeam num) (recordsOf "GBEAMG" f) (some rows) →
        List.Forall₂ (LastRow rows) gs out → getSectionProperties o sets = .ok (gs.zip out)) ∧
      (∀ es gs rows out, Chosen m sets (some "shell") es → Geometries geos es gs →
        Describes (IsThick num) (recordsOf "GELTH" f) (some rows) →
        List.Forall₂ (LastRow rows) gs out → getShellThicknesses o sets = .ok out) := by
  obtain ⟨s1, d, o, q1, -, -, -, -, -, hr, q2⟩ := session_object hs F hstem he3 hfree hi hno
  refine ⟨s1, d, q1, fun s2 hsp => ⟨o, q2 s2 hsp, ?_, ?_⟩⟩
  · intro es gs rows out hch hgs hrows ho
    exact sections_found (hr.mesh m hm) hval (hsets.imp id (hr.sets m)) hch (hr.geo _ hg)
      (hr.beams _ hrows) hgs ho
  · intro es gs rows out hch hgs hrows ho
    exact thicknesses_found (hr.mesh m hm) hval (hsets.imp id (hr.sets m)) hch (hr.geo _ hg)
      (hr.thick _ hrows) hgs ho

/-- **C70** Names of sets -/
theorem session_set_names (hs : Reachable iter pi num cplx D B s)
    (F : SesamFile D s.conv filename dir fname fp l no ext b fp f names t n "FIRSTLEVEL"
      "STRUCTURAL" {} h1 h2 ms)
    (hstem : fname = stem ++ e3) (he3 : e3.length = 3)
    (hfree : stem ++ "h5".toList ∉ s.conv.memory ++ s.conv.leaked) (hi : Enumerates h2 (iter h2))
    (hno : no = (toString t).toList) :
    ∃ s1 d, openSif iter pi num cplx D B s filename = (s1, .ok d) ∧
      ∀ s2, Spares iter pi num cplx D B s.life.files.length s1 s2 → ∃ o, struc num s2 d = .ok o ∧
      (∀ m : Mesh K, SetsFile f m → getSetNames o = .ok (some (m.names.map Prod.fst))) ∧
      (recordsOf "TDSETNAM" f = [] → getSetNames o = .ok none) := by
  obtain ⟨s1, d, o, q1, ho, -, -, -, -, hr, q2⟩ := session_object hs F hstem he3 hfree hi hno
  refine ⟨s1, d, q1, fun s2 hsp => ⟨o, q2 s2 hsp, fun m hm => ?_,
    fun hno => (set_names ho).2 (hr.noSets hno)⟩⟩
  rw [(set_names ho).1 _ (hr.sets m hm).names, List.map_map]
  rfl

/-- **C70** A hydrodynamic results file: the object is made from the records of the file, and gives
the same after any calls that do not close it. -/
theorem session_hydro (hs : Reachable iter pi num cplx D B s)
    (F : SesamFile D s.conv filename dir fname fp l no ext b fp f names t n lev
      "HYDRODYNAMIC" {} h1 h2 ms)
    (hstem : fname = stem ++ e3) (he3 : e3.length = 3)
    (hfree : stem ++ "h5".toList ∉ s.conv.memory ++ s.conv.leaked) (hi : Enumerates h2 (iter h2))
    (hno : no = (toString t).toList) {Dirs W : List K} {glob : GlobRow K}
    (hg : GridFile num f Dirs W glob) :
    ∃ s1 d tabs o, openSif iter pi num cplx D B s filename = (s1, .ok d) ∧
      Data.hydroInit pi tabs = .ok o ∧ ReadsHydro num cplx f tabs ∧
      getDirections pi o "radians" = .ok Dirs ∧ getAngularFreqs o = .ok W ∧
      ∀ s2, Spares iter pi num cplx D B s.life.files.length s1 s2 →
        hydro pi num cplx s2 d = .ok o := by
  obtain ⟨s1, d, tabs, o, q1, q2, q3, q4, q5, q6, q7, q8⟩ :=
    open_sif_hydro hs F hstem he3 hfree hi hno hg
  refine ⟨s1, d, tabs, o, q1, q5, q6, q7, q8, ?_⟩
  intro s2 hsp
  have r' : Reachable iter pi num cplx D B s1 := by
    have := Reachable.step hs (.openSif s filename)
    rw [q1] at this
    exact this
  rw [← q4]
  unfold hydro
  rw [(object_stays r' q3 hsp).group, q3.group]

/-- **C70** A hierarchy: the object of the top level superelement has the hierarchy and the
transformations of the file, the objects of the first level superelements below it what their own
files describe, after any calls that do not close the File. -/
theorem session_hierarchy (hs : Reachable iter pi num cplx D B s)
    (F : SesamFile D s.conv filename dir fname fp l no ext b fp f names t n "TOPLEVEL"
      "STRUCTURAL" {} h1 h2 ms)
    (hstem : fname = stem ++ e3) (he3 : e3.length = 3)
    (hfree : stem ++ "h5".toList ∉ s.conv.memory ++ s.conv.leaked) (hi : Enumerates h2 (iter h2))
    (hno : no = (toString t).toList) (hlet : l ∈ ['R', 'T', 'L'])
    {tab : Tab} (htab : h1.tabs ([n], "HIERARCH") = some tab)
    {row : List Cell} (hrow : row ∈ tab.rows.tail) {name : Str} {r : Int} {b' : Bytes}
    (hw : Conv.Wanted fp ext row name r) (hb' : s.conv.disk (dir ++ name) = some b') :
    ∃ s1 d o, openSif iter pi num cplx D B s filename = (s1, .ok d) ∧ o.isOpen = true ∧
      ReadsTop num f o ∧
      (∀ s2, Spares iter pi num cplx D B s.life.files.length s1 s2 → top num s2 d = .ok o) ∧
      ∃ sk f' i hrec idx t' m lev' d', Encoded D sk f' (sourceOf (b.head? != some 75) b') ∧
        r = (i : Nat) + 1 ∧ tab.rows[i]? = some hrec ∧ IndexOf (String.ofList [l]) hrec idx ∧
        SubName l t' idx m ∧ LowLevel l hrec lev' ∧
        (∀ s2, Spares iter pi num cplx D B s.life.files.length s1 s2 →
          getItem s2.life s.life.files.length (n ++ "/" ++ m) = .ok d') ∧
        (lev' = "FIRSTLEVEL" → ∃ o', o'.isOpen = true ∧ o'.seltyp = t' ∧ Reads num f' o' ∧
          ∀ s2, Spares iter pi num cplx D B s.life.files.length s1 s2 →
            struc num s2 d' = .ok o') := by
  obtain ⟨s1, d, o, q1, q2, q3, q4, q5, q6⟩ := open_sif_top hs F hstem he3 hfree hi hno
  have r' : Reachable iter pi num cplx D B s1 := by
    have := Reachable.step hs (.openSif s filename)
    rw [q1] at this
    exact this
  obtain ⟨sk, f', names', t', i, hrec, idx, m, lev', d', u1, u2, u3, u4, u5, u8, u6, u7⟩ :=
    lower_object F q2.holds hlet htab rfl hrow hw hb'
  refine ⟨s1, d, o, q1, q5, q6, ?_, sk, f', i, hrec, idx, t', m, lev', d', u1, u2, u3, u4, u5, u8,
    ?_, ?_⟩
  · intro s2 hsp
    rw [← q4]
    unfold top
    rw [(object_stays r' q3 hsp).group, q3.group]
  · intro s2 hsp
    rw [← u6]
    unfold getItem
    cases hl : items s1.life s.life.files.length with
    | error e =>
      unfold getItem at u6
      rw [hl] at u6
      cases u6
    | ok lst => rw [(spared_open r' hl hsp).1]
  · intro hlev
    rcases u7 with ⟨rfl, -⟩ | ⟨-, v1, o', v2, v3, -, v4, -, v5⟩
    · exact absurd hlev (by decide)
    · refine ⟨o', v3, v4, v5, ?_⟩
      intro s2 hsp
      rw [← v2]
      unfold struc
      rw [(object_stays r' v1 hsp).group, v1.group]

end

end Verif.Session
