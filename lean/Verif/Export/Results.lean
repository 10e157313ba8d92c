import Verif.Export.Mesh
import Verif.Data.ResProps
import Verif.Data.ElemResProps
/-!
# Writing results to a VTU file (property theorems)
-/

namespace Verif.Export
open Verif Verif.Vtu Verif.Data

variable {K : Type}

theorem writable_rows {e : Enc K} (he : e.Ok) {n : Nat} (hn : n ≤ 16) {rows : List (List K)}
    (h : rows.length < 2 ^ 56) : Writable (rowsArr e n rows) := by
  refine ⟨by simp [rowsArr], he.vtk, ?_⟩
  simp only [Arr.nbytes, rowsArr, List.length_map, List.prod_cons, List.prod_nil, Nat.mul_one]
  calc rows.length * n * e.itemsize ≤ rows.length * 16 * 8 :=
        Nat.mul_le_mul (Nat.mul_le_mul_left _ hn) he.size
    _ < 2 ^ 64 := by omega

/-- rows of real values -/
theorem real_rows {vs : List (List (Num K))} (h : ∀ v ∈ vs, ∀ x ∈ v, OfKind 0 x) :
    ∃ rows : List (List K), vs = rows.map (List.map Num.re) := by
  have one : ∀ v : List (Num K), (∀ x ∈ v, OfKind 0 x) → ∃ r : List K, v = r.map Num.re := by
    intro v hv
    induction v with
    | nil => exact ⟨[], rfl⟩
    | cons x v ih =>
      obtain ⟨r, rfl⟩ := ih fun y hy => hv y (List.mem_cons_of_mem _ hy)
      rcases hv x List.mem_cons_self with ⟨-, y, rfl⟩ | ⟨h0, -⟩
      · exact ⟨y :: r, rfl⟩
      · exact absurd rfl h0
  induction vs with
  | nil => exact ⟨[], rfl⟩
  | cons v vs ih =>
    obtain ⟨rows, rfl⟩ := ih fun y hy => h y (List.mem_cons_of_mem _ hy)
    obtain ⟨r, rfl⟩ := one v (h v List.mem_cons_self)
    exact ⟨r :: rows, rfl⟩

/-- **C71** The mesh of a selection with the first `cols` components of the results of one result
case at its nodes, as in `examples/struc_example.py`: all calls return; the piece of the file shows
the elements, and row `k` of its point data has the values of the node that is point `k`. -/
theorem export_node_results [Semiring K] {d : Struc K} {m : Mesh K} (hd : Holds d m) (hv : Valid m)
    {sets : SetsArg} (hs : NoSets sets ∨ HoldsSets d m) {kind : Option String} {es : List Nat}
    (hc : Chosen m sets kind es) {els : List Element} (hl : Elements m es els) (hne : els ≠ [])
    {disc : Bool} {ns : List Nat} (hn : ChosenNodes m sets kind els disc ns)
    (hmn : m.nodes ≠ []) (hdisc : disc = false ∨ ¬ NoSelection sets kind ∨ AllUsed m els)
    (hnodes : ∀ el ∈ els, nodesOf el.typ = some el.nodes.length) {e e' : Enc K} (he : e.Ok)
    (he' : e'.Ok) {tc tf tt : IntType} (htc : tc.Ok) (htf : tf.Ok) (hbig : ns.length < 2 ^ 56)
    (hbig' : (els.flatMap Element.nodes).length < 2 ^ 56) (hfit : ns.length ≤ 256 ^ tc.itemsize)
    (hfit' : (els.flatMap Element.nodes).length < 256 ^ tf.itemsize)
    {restype : String} {rs : List (CaseRes K)} {c : CaseRes K} (hres : HoldsRes d m restype rs)
    {refs : List ResRef} (hrefs : d.rdresref = some refs) {run : Int} {rescases : CasesArg}
    (hflag : ∀ r, Wanted refs run rescases r → r.icompl = 0)
    (hpick : Picked refs run rescases rs [c])
    (hall : ∀ r, Wanted refs run rescases r → ∃ c ∈ rs, c.ires = r.ires)
    (hkind : ∀ v ∈ c.values, ∀ x ∈ v, OfKind 0 x) {cols : Nat} (hcols : cols ≤ 6)
    (name : Vtu.Str) (comps : List Vtu.Str) (fuel : Nat) (index : Int) :
    ∃ elems coords res p a out, getElements d sets kind disc = .ok elems ∧
      getNodes d fuel sets kind disc .none index = .ok coords ∧
      getNodeResults d restype run rescases sets kind disc =
        .ok (.single (res.map (List.map Num.re))) ∧
      Written (exportCalls (pieceCall e tc tf tt coords elems)
        [.addData (rowsArr e' cols (columns cols res)) name comps]) out ∧
      Holds1 out p ∧ Shows e m els ns p ∧ p.sections = [⟨.point, [⟨a, name, comps⟩]⟩] ∧
      a.tail = [cols] ∧
      List.Forall₂ (fun n row => ∃ v : List K, c.values[n]? = some (v.map Num.re) ∧
        row = (v.take cols).flatMap e'.bytes) ns a.rows := by
  obtain ⟨elems, coords, p, h1, h2, h3, -, -, h4⟩ := export_mesh hd hv hs hc hl hne hn hnodes he
    (tt := tt) htc htf hbig hbig' hfit hfit' fuel index
  obtain ⟨arrs, h5, h6, -⟩ := node_results_line_up_partial hd hv hs hc hl (.inl hne) hn hmn
    (hdisc.imp id fun h => ⟨hne, h⟩) hres hrefs hflag hpick hall
    (by intro c' hc'; rw [List.mem_singleton] at hc'; subst hc'; exact hkind) (by simp)
  obtain ⟨vs, rfl, hvs⟩ : ∃ vs, arrs = [vs] ∧ RowsOf c ns vs := by
    cases h5 with
    | cons h7 h8 => cases h8; exact ⟨_, rfl, h7⟩
  obtain ⟨res, rfl⟩ := real_rows (vs := vs) (by
    intro v hv'
    obtain ⟨i, hi, rfl⟩ := List.mem_iff_getElem.mp hv'
    have := (List.forall₂_iff_get.mp hvs).2 i (by rw [hvs.length_eq]; exact hi) hi
    exact hkind _ (List.mem_of_getElem? this))
  have hlen : res.length = ns.length := by
    have := hvs.length_eq
    simpa using this.symm
  obtain ⟨out, h7, h8⟩ := h4 _ _ (.cons (.plain (rowsArr e' cols (columns cols res)) name comps
    (writable_rows he' (by omega) (by simp [columns, hlen]; omega))) .nil)
  refine ⟨elems, coords, res, _, rowsArr e' cols (columns cols res), out, h1, h2, h6 _ rfl, h7, h8,
    ⟨h3.points, h3.types, h3.cells⟩, rfl, rfl, ?_⟩
  unfold RowsOf at hvs
  rw [List.forall₂_map_right_iff] at hvs
  simp only [rowsArr, columns, List.forall₂_map_right_iff]
  exact hvs.imp fun n v hv' => ⟨v, hv', rfl⟩

theorem vtkResOrder_map {α β : Type} (f : α → β) (t : Nat) (l : List α) :
    vtkResOrder t (l.map f) = (vtkResOrder t l).map f := by
  by_cases h : t = 26
  · subst h
    rcases l with _ | ⟨a, _ | ⟨b, _ | ⟨c, _ | ⟨d, _ | ⟨e, _ | ⟨f, _ | ⟨g, l⟩⟩⟩⟩⟩⟩⟩ <;> rfl
  have : ∀ {γ : Type} (l : List γ), vtkResOrder t l = l := by
    intro γ l
    unfold vtkResOrder
    split
    · exact absurd rfl h
    · rfl
  rw [this, this]

theorem vtkResOrder_length {α : Type} (t : Nat) (l : List α) :
    (vtkResOrder t l).length = l.length := by
  unfold vtkResOrder
  split <;> rfl

theorem pieces_flatten {β : Type} {k : Nat} {rows : List (List β)} (h : ∀ r ∈ rows, r.length = k) :
    pieces k rows.length rows.flatten = rows := by
  induction rows with
  | nil => rfl
  | cons r rows ih =>
    have hr := h r List.mem_cons_self
    simp only [List.length_cons, pieces, List.flatten_cons]
    rw [← hr, List.take_left, List.drop_left, hr, ih fun x hx => h x (List.mem_cons_of_mem _ hx)]

/-- **C71** The elements of a kind with nodes of their own (`disconnected=True`) and the results of
one result case at the nodes of the elements: all calls return; the piece of the file shows the
elements, and the rows of its point data for the nodes of an element are the results of that
element's own record, with those of six node triangles put in VTK order. -/
theorem export_element_results [Field K] {d : Struc K} {m : Mesh K} (hd : Holds d m) (hv : Valid m)
    {sets : SetsArg} (hs : NoSets sets ∨ HoldsSets d m) {restype kind : String} {es : List Nat}
    (hc : Chosen m sets (some kind) es) {els : List Element} (hl : Elements m es els)
    (hne : els ≠ []) {ns : List Nat} (hn : ChosenNodes m sets (some kind) els true ns) {k : Nat}
    (hk16 : k ≤ 16) (hnodes : ∀ el ∈ els, nodesOf el.typ = some el.nodes.length)
    (hdims : ∀ el ∈ els, dimsOf restype el.typ = some [k]) {recs : List (ElemRec K)}
    (hres : HoldsElemRes d restype kind storedReal recs) {refs : List ResRef}
    (hrefs : d.rdresref = some refs) {run : Int} {rescases : CasesArg}
    (hflag : ∀ r, Wanted refs run rescases r → r.icompl = 0) {c : Int}
    (hcs : CaseNumbers refs run rescases [c]) {rs : List (ElemRec K)}
    (hk : Kept (Concerns refs run rescases es) recs rs) (hline : LinesUp m es rs) (s3 : K)
    {e e' : Enc K} (he : e.Ok) (he' : e'.Ok) {tc tf tt : IntType} (htc : tc.Ok) (htf : tf.Ok)
    (hbig : ns.length < 2 ^ 56) (hfit : ns.length ≤ 256 ^ tc.itemsize)
    (hfit' : ns.length < 256 ^ tf.itemsize) (name : Vtu.Str) (comps : List Vtu.Str) (fuel : Nat)
    (index : Int) :
    ∃ elems coords res bs p a out, getElements d sets (some kind) true = .ok elems ∧
      getNodes d fuel sets (some kind) true .none index = .ok coords ∧
      getElementResults s3 d restype "nodes" run rescases sets = .ok (.real res) ∧
      Written (exportCalls (pieceCall e tc tf tt coords elems)
        [.addDataCellpoints (ndArr e' res) name comps]) out ∧
      Holds1 out p ∧ Shows e m els ns p ∧ p.sections = [⟨.point, [⟨a, name, comps⟩]⟩] ∧
      a.tail = [k] ∧
      List.Forall₂ (fun (r : ElemRec K) b =>
        processElem s3 r.typ restype "nodes" r.values = .ok (some b)) rs bs ∧
      a.rows = (List.zipWith (fun (el : Element) (b : Block K) =>
        (vtkResOrder el.typ.toNat b.rows).map fun r => r.flatMap e'.bytes) els bs).flatten ∧
      List.Forall₂ (fun (el : Element) (b : Block K) => b.rows.length = el.nodes.length) els bs := by
  have hnl : ns.length = (els.flatMap Element.nodes).length := by
    cases hn with
    | places h => rw [← h, List.length_map]
  obtain ⟨elems, coords, p, h1, h2, h3, ho, ht, h4⟩ := export_mesh hd hv hs hc hl hne hn hnodes he
    (tt := tt) htc htf hbig (hnl ▸ hbig) hfit (hnl ▸ hfit') fuel index
  obtain ⟨bss, h5, h6, h7⟩ := element_results_real_partial (css := [rs]) hd hv hs hc hl hne hnodes
    hdims hres hrefs hflag hcs (by simp) (by simpa using hk) rfl (by simpa using hline) s3
  obtain ⟨bs, rfl, h8⟩ : ∃ bs, bss = [bs] ∧ List.Forall₂ (fun (r : ElemRec K) b =>
        processElem s3 r.typ restype "nodes" r.values = .ok (some b)) rs bs := by
    cases h5 with
    | cons a b => cases b; exact ⟨_, rfl, a⟩
  have h9 := h6 bs (by simp)
  have hlens : List.Forall₂ (fun (el : Element) (b : Block K) => b.rows.length = el.nodes.length) els
      bs := h9.imp fun _ _ h => h.2.1
  have hrow : ∀ r ∈ bs.flatMap Block.rows, r.length = k := by
    intro r hr
    rw [List.mem_flatMap] at hr
    obtain ⟨b, hb, hr⟩ := hr
    obtain ⟨i, hi, rfl⟩ := List.mem_iff_getElem.mp hb
    have := (List.forall₂_iff_get.mp h9).2 i (by rw [h9.length_eq]; exact hi) hi
    simpa using this.2.2 r hr
  have htot : (bs.flatMap Block.rows).length = (els.flatMap Element.nodes).length := by
    clear * - hlens
    induction hlens with
    | nil => rfl
    | cons h _ ih => simp only [List.flatMap_cons, List.length_append, h, ih]
  set res : NArr K := ⟨[(els.flatMap Element.nodes).length, k], (bs.flatMap Block.rows).flatten⟩
    with hresdef
  have h7' : getElementResults s3 d restype "nodes" run rescases sets = .ok (.real res) := by
    rw [h7]
    simp [hresdef]
  set enc : List K → List Byte := fun r => r.flatMap e'.bytes with henc
  have harr : ndArr e' res = ⟨e'.dtype, e'.itemsize, [k], (bs.map fun b => b.rows.map enc).flatten⟩ := by
    unfold ndArr
    simp only [hresdef, List.prod_cons, List.prod_nil, Nat.mul_one]
    rw [← htot, pieces_flatten hrow, List.flatMap_def, List.map_flatten, List.map_map]
    rfl
  have hbl : List.Forall₂ (fun (el : Element) (b : List (List Byte)) => b.length = el.nodes.length) els
      (bs.map fun b => b.rows.map enc) := by
    rw [List.forall₂_map_right_iff]
    exact hlens.imp fun _ _ h => by rw [List.length_map, h]
  have hre : reorderData resTable (ndArr e' res).rows 0 p.offsets.vals p.types.vals =
      ((List.zipWith vtkResOrder (els.map fun el => el.typ.toNat)
        (bs.map fun b => b.rows.map enc)).flatten, none) := by
    have := reorder_results (bs.map fun b => b.rows.map enc) (els.map fun el => el.typ.toNat) []
      (by simp [hlens.length_eq]) (by
        intro q hq
        rw [List.zip_map_left, List.mem_map] at hq
        obtain ⟨⟨el, b⟩, hq, rfl⟩ := hq
        have hb := (List.forall₂_iff_zip.mp hbl).2 hq
        obtain ⟨t, v, ht', -, -, -, h26⟩ := vtk_of_nodes (hnodes el (List.of_mem_zip hq).1)
        simp only [Prod.map_fst, Prod.map_snd, id, ht', Int.toNat_natCast, hb]
        exact h26)
    rw [List.append_nil, List.append_nil] at this
    rw [harr, ho, ht, ← this]
    congr 1
    apply ends_congr
    rw [List.forall₂_map_left_iff]
    exact hbl.imp fun _ _ h => h.symm
  set rows' := (List.zipWith vtkResOrder (els.map fun el => el.typ.toNat)
        (bs.map fun b => b.rows.map enc)).flatten with hrows'
  have hw : Writable { ndArr e' res with rows := rows' } := by
    have hlen : rows'.length = ns.length := by
      rw [hrows', hnl, ← htot, List.length_flatten, List.map_zipWith, List.length_flatMap]
      simp only [vtkResOrder_length]
      rw [zip_lengths (by simp [hlens.length_eq]), List.map_map]
      simp [Function.comp_def]
    refine ⟨by simp [harr], by rw [harr]; exact he'.vtk, ?_⟩
    simp only [Arr.nbytes, harr, hlen, List.prod_cons, List.prod_nil, Nat.mul_one]
    calc ns.length * k * e'.itemsize ≤ ns.length * 16 * 8 :=
          Nat.mul_le_mul (Nat.mul_le_mul_left _ hk16) he'.size
      _ < 2 ^ 64 := by omega
  obtain ⟨out, h10, h11⟩ := h4 _ _ (.cons (.cell (ndArr e' res) name comps rows' hre hw) .nil)
  refine ⟨elems, coords, res, bs, _, _, out, h1, h2, h7', h10, h11,
    ⟨h3.points, h3.types, h3.cells⟩, rfl, by simp [harr], h8, ?_, hlens⟩
  simp only [hrows']
  rw [List.zipWith_map]
  simp only [vtkResOrder_map]

/-- **C71** Arrays with more than two axes (stresses on both surfaces, or several result cases)
and arrays of complex numbers cannot be added: the writer refuses them and stays as it was. -/
theorem export_refused {s : St} {p : Piece} {doc : Doc} (h : Rel s (doc ++ [p]))
    (hs : p.sections ≠ []) (a : Arr) (n : Vtu.Str) (cs : List Vtu.Str) :
    (2 ≤ a.tail.length → addData a n cs s = (s, some .vtkError)) ∧
    (a.tail.length ≤ 1 → (∀ vt, (a.dtype, vt) ∉ vtkNames) →
      addData a n cs s = (s, some .keyError)) := by
  have hin : InData s (doc ++ [p]) := by
    rcases h with ⟨h0, -⟩ | ⟨-, hp⟩ | h
    · simp at h0
    · exact absurd (hp p (by simp)) hs
    · exact h
  rw [addData_inData _ _ _ hin]
  unfold writeArray
  constructor
  · intro ht
    rcases htl : a.tail with _ | ⟨x, _ | ⟨y, l⟩⟩
    · simp [htl] at ht
    · simp [htl] at ht
    · rfl
  · intro ht hd
    have hv : vtkDatatype a.dtype = none := by
      rcases hh : vtkDatatype a.dtype with _ | vt
      · rfl
      · exact absurd ((vtkDatatype_iff _ _).mp hh) (hd vt)
    rcases htl : a.tail with _ | ⟨x, _ | ⟨y, l⟩⟩
    · simp [hv]
    · simp [hv]
    · simp [htl] at ht

end Verif.Export
