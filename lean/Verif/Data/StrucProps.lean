import Verif.Data.Select
import Verif.Data.DemoMesh
/-!
# Selections of nodes and elements: C27, C28, C29, C30, C31
-/

namespace Verif.Data
open Verif
open Verif.Seq (Str)

variable {K : Type}

/-! ## helper lemmas -/

section
variable {d : Struc K} {m : Mesh K} {sets : SetsArg} {kind : Option String} {es : List Nat}
  {l : List Element} {disc : Bool} {ns : List Nat}

theorem mem_elements (hl : Elements m es l) {e : Element} (he : e ∈ l) : e ∈ m.elems := by
  unfold Elements at hl
  induction hl with
  | nil => simp at he
  | cons h _ ih =>
    rcases List.mem_cons.mp he with rfl | he
    · exact List.mem_of_getElem? h
    · exact ih he

theorem mem_flat (hv : Valid m) (hl : Elements m es l) {n : Nat}
    (hn : n ∈ l.flatMap Element.nodes) : 1 ≤ n ∧ n ≤ m.nodes.length := by
  obtain ⟨e, he, hn⟩ := List.mem_flatMap.mp hn
  exact (hv.nodes e (mem_elements hl he)).2 n hn

theorem flat_ne (hv : Valid m) (hl : Elements m es l) (hne : l ≠ []) :
    l.flatMap Element.nodes ≠ [] := by
  cases l with
  | nil => exact absurd rfl hne
  | cons e l =>
    have := (hv.nodes e (mem_elements hl List.mem_cons_self)).1
    rw [List.flatMap_cons]
    intro h
    exact this (List.append_eq_nil_iff.mp h).1

theorem nodes_lt (hv : Valid m) (hl : Elements m es l)
    (hn : ChosenNodes m sets kind l disc ns) : ∀ n ∈ ns, n < m.nodes.length := by
  intro n hmem
  cases hn with
  | places h =>
    have : n + 1 ∈ l.flatMap Element.nodes := by rw [← h]; exact List.mem_map.mpr ⟨n, hmem, rfl⟩
    have := mem_flat hv hl this
    omega
  | whole _ => exact List.mem_range.mp hmem
  | used _ h =>
    have : n + 1 ∈ l.flatMap Element.nodes := (h.2 _).mp (List.mem_map.mpr ⟨n, hmem, rfl⟩)
    have := mem_flat hv hl this
    omega

theorem map_pred {flat ns : List Nat} (h : ns.map (· + 1) = flat) :
    (flat.map fun n : Nat => (n : Int) - 1) = ns.map fun n : Nat => (n : Int) := by
  rw [← h, List.map_map]
  apply List.map_congr_left
  intro n _
  simp

theorem unique_pred {flat ns : List Nat} (h : Distinct flat (ns.map (· + 1))) :
    npUnique (flat.map fun n : Nat => (n : Int) - 1) = ns.map fun n : Nat => (n : Int) := by
  apply npUnique_eq
  · rw [List.pairwise_map]
    have := h.1
    rw [List.pairwise_map] at this
    exact this.imp fun h => by omega
  · intro x
    rw [List.mem_map, List.mem_map]
    constructor
    · rintro ⟨n, hn, rfl⟩
      exact ⟨n + 1, (h.2 _).mp (List.mem_map.mpr ⟨n, hn, rfl⟩), by simp⟩
    · rintro ⟨n, hn, rfl⟩
      obtain ⟨k, hk, rfl⟩ := List.mem_map.mp ((h.2 n).mpr hn)
      exact ⟨k, hk, by simp⟩

theorem nodeIndices_ok (hd : Holds d m) (hv : Valid m) (hs : NoSets sets ∨ HoldsSets d m)
    (hc : Chosen m sets kind es) (hl : Elements m es l) (hne : l ≠ [] ∨ NoSelection sets kind)
    (hn : ChosenNodes m sets kind l disc ns) :
    nodeIndices d sets kind disc = .ok (ns.map fun n : Nat => (n : Int)) := by
  obtain ⟨rows, hg, hr⟩ := hd.elems
  have hei := elementIndices_ok hd hv hs hc
  unfold nodeIndices need
  rw [hd.isOpen, hd.coords, hg]
  simp only [if_true, bind_ok]
  by_cases hsel : NoSelection sets kind
  · rw [noSelection_iff.mp hsel]
    have hes := hc.all hsel
    subst hes
    obtain rfl := elements_all hl
    cases hn with
    | places h =>
      simp only [Bool.false_eq_true, if_false, if_true]
      rw [List.map_map]
      exact congrArg Except.ok (map_pred h)
    | whole _ =>
      simp only [Bool.false_eq_true, if_false, npArange, List.length_map]
    | used h _ => exact absurd hsel h
  · have hb : (sets.truthy || kindTruthy kind) = true := by
      cases h : (sets.truthy || kindTruthy kind)
      · exact absurd (noSelection_iff.mpr h) hsel
      · rfl
    obtain ⟨offs, hcon, _⟩ := connectivity_ok hd hl (hne.resolve_right hsel)
    rw [if_pos hb, hei, bind_ok, hcon]
    simp only [bind_ok]
    cases hn with
    | places h => rw [if_pos rfl, map_pred h]
    | whole h => exact absurd h hsel
    | used _ h => rw [if_neg (by decide), unique_pred h]

theorem forall₂_range_left {α : Type} {R : Int → α → Prop} {l : List α}
    (h : ∀ (i : Nat) x, l[i]? = some x → R (i : Int) x) : List.Forall₂ R (npArange l.length) l := by
  rw [List.forall₂_iff_get]
  refine ⟨by simp [npArange], fun i h1 h2 => ?_⟩
  simp only [List.get_eq_getElem, npArange, List.getElem_map, List.getElem_range]
  exact h i _ (List.getElem?_eq_getElem h2)

theorem getElements_ok (hd : Holds d m) (hv : Valid m) (hs : NoSets sets ∨ HoldsSets d m)
    (hc : Chosen m sets kind es) (hl : Elements m es l) (hne : l ≠ [] ∨ NoSelection sets kind)
    (hn : ChosenNodes m sets kind l disc ns) :
    ∃ con offs, getElements d sets kind disc = .ok (con, offs, l.map Element.typ) ∧
      Ends 0 l offs ∧ FitsNodes con ns l := by
  obtain ⟨rows, hg, hr⟩ := hd.elems
  have hei := elementIndices_ok hd hv hs hc
  unfold getElements need
  rw [hd.isOpen, hg]
  simp only [if_true, bind_ok]
  by_cases hsel : NoSelection sets kind
  · rw [noSelection_iff.mp hsel]
    have hes := hc.all hsel
    subst hes
    obtain rfl := elements_all hl
    have htys : ∀ {a s : Nat} {es : List Element} {rs : List ElemRow}, ElemRows a s es rs →
        rs.map ElemRow.eltyp = es.map Element.typ := by
      intro a s es rs h
      induction h with
      | nil => rfl
      | cons _ ih => simp [ih]
    have hty := htys hr
    have hst : ∀ {a s : Nat} {es : List Element} {rs : List ElemRow}, ElemRows a s es rs →
        Ends s es (rs.map ElemRow.stop) := by
      intro a s es rs h
      induction h with
      | nil => exact .nil
      | cons _ ih => exact .cons ih
    simp only [Bool.false_eq_true, if_false]
    refine ⟨_, _, by rw [hty], hst hr, ?_⟩
    cases hn with
    | places h =>
      rw [if_pos rfl]
      unfold FitsNodes
      rw [List.length_map]
      apply forall₂_range_left
      intro i n hi
      refine ⟨i, rfl, ?_⟩
      rw [← h, List.getElem?_map] at hi
      exact hi
    | whole _ =>
      rw [if_neg (by decide), List.map_map]
      unfold FitsNodes
      rw [List.forall₂_map_left_iff, List.forall₂_same]
      intro n hn
      have := mem_flat hv hl hn
      refine ⟨n - 1, ?_, ?_⟩
      · simp only [Function.comp_apply]; omega
      · rw [List.getElem?_range (by omega), Option.map_some, Nat.sub_add_cancel this.1]
    | used h _ => exact absurd hsel h
  · have hb : (sets.truthy || kindTruthy kind) = true := by
      cases h : (sets.truthy || kindTruthy kind)
      · exact absurd (noSelection_iff.mpr h) hsel
      · rfl
    have hne' := hne.resolve_right hsel
    obtain ⟨offs, hcon, hends⟩ := connectivity_ok hd hl hne'
    obtain ⟨rs, h1, h2, _⟩ := elements_rows hr hl
    rw [if_pos hb, hei, bind_ok, hcon]
    simp only [bind_ok]
    rw [npTake_map, npTake_nat h1]
    simp only [Except.map, bind_ok]
    rw [h2]
    cases hn with
    | places h =>
      rw [if_pos rfl]
      refine ⟨_, offs, rfl, hends, ?_⟩
      rw [List.length_map]
      apply forall₂_range_left
      intro i n hi
      refine ⟨i, rfl, ?_⟩
      rw [← h, List.getElem?_map] at hi
      exact hi
    | whole h => exact absurd h hsel
    | used _ h =>
      rw [if_neg (by decide)]
      obtain ⟨con, hu, hf⟩ := updateConnectivity_ok (flat_ne hv hl hne') h
      rw [hu]
      exact ⟨con, offs, rfl, hends, hf⟩

theorem getNodes_ok [Semiring K] (hd : Holds d m) (hv : Valid m)
    (hs : NoSets sets ∨ HoldsSets d m) (hc : Chosen m sets kind es) (hl : Elements m es l)
    (hne : l ≠ [] ∨ NoSelection sets kind) (hn : ChosenNodes m sets kind l disc ns)
    (fuel : Nat) (index : Int) :
    ∃ coords, getNodes d fuel sets kind disc .none index = .ok coords ∧
      List.Forall₂ (fun n p => (m.nodes[n]?).map Node.pos = some p) ns coords := by
  have hi := nodeIndices_ok hd hv hs hc hl hne hn
  obtain ⟨coords, hcs⟩ := forall₂_get (l := m.nodes.map Node.pos) (is := ns) fun n h => by
    rw [List.length_map]; exact nodes_lt hv hl hn n h
  refine ⟨coords, ?_, hcs.imp fun n p h => by rw [← h, List.getElem?_map]⟩
  unfold getNodes need
  rw [hd.isOpen, hd.coords]
  simp only [if_true, bind_ok]
  rw [hi, bind_ok, npTake_nat hcs]
  rfl

end

/-! ## C27: connectivity and coordinates -/

/-- **C27** For every selection by `sets`, `kind` and `disconnected`: `get_elements` and
`get_nodes` with the same arguments fit together, the i-th entry of the connectivity is the row of
the coordinates of the node listed at that place of the selected elements `l`.  The rows of the
coordinates are those of the nodes of the selection. -/
theorem connectivity_fits [Semiring K] {d : Struc K} {m : Mesh K} (hd : Holds d m) (hv : Valid m)
    {sets : SetsArg} (hs : NoSets sets ∨ HoldsSets d m) {kind : Option String} {es : List Nat}
    (hc : Chosen m sets kind es) {l : List Element} (hl : Elements m es l)
    (hne : l ≠ [] ∨ NoSelection sets kind) {disc : Bool} {ns : List Nat}
    (hn : ChosenNodes m sets kind l disc ns) (fuel : Nat) (index : Int) :
    ∃ con offs typs coords, getElements d sets kind disc = .ok (con, offs, typs) ∧
      getNodes d fuel sets kind disc .none index = .ok coords ∧
      List.Forall₂ (fun n p => (m.nodes[n]?).map Node.pos = some p) ns coords ∧
      List.Forall₂ (fun (c : Int) n => ∃ (k : Nat) (node : Node K), c = k ∧
        m.nodes[n - 1]? = some node ∧ coords[k]? = some node.pos)
        con (l.flatMap Element.nodes) := by
  obtain ⟨con, offs, h1, h2, h3⟩ := getElements_ok hd hv hs hc hl hne hn
  obtain ⟨coords, h4, h5⟩ := getNodes_ok hd hv hs hc hl hne hn fuel index
  refine ⟨con, offs, _, coords, h1, h4, h5, h3.imp ?_⟩
  rintro c n ⟨k, rfl, hk⟩
  rw [Option.map_eq_some_iff] at hk
  obtain ⟨j, hj, rfl⟩ := hk
  obtain ⟨hlt, hjk⟩ := List.getElem?_eq_some_iff.mp hj
  have hlen := h5.length_eq
  have := (List.forall₂_iff_get.mp h5).2 k hlt (by omega)
  simp only [List.get_eq_getElem, hjk] at this
  rw [Option.map_eq_some_iff] at this
  obtain ⟨node, hnode, hpos⟩ := this
  exact ⟨k, node, rfl, hnode, by rw [hpos]; exact List.getElem?_eq_getElem _⟩

/-- C27: the elements of set `A` -/
example := connectivity_fits Demo.holds Demo.valid (.inr Demo.holdsSets) Demo.chosenA Demo.elementsA
  (.inl (by simp)) Demo.nodesA 0 1
example := connectivity_fits Demo.holds Demo.valid (.inr Demo.holdsSets) Demo.chosenA Demo.elementsA
  (.inl (by simp)) Demo.placesA 0 1
example : getElements Demo.object (.one Demo.nameA) none false =
    .ok ([0, 1, 2, 3, 4, 2], [4, 6], [24, 15]) := rfl
example : getElements Demo.object (.one Demo.nameA) none true =
    .ok ([0, 1, 2, 3, 4, 5], [4, 6], [24, 15]) := rfl

/-! ## C28: offsets and types -/

/-- **C28** For every selection: one offset and one type for each selected element, in order; the
offset of an element is the number of connectivity entries up to and including it, so the last one
is the length of the connectivity; and the entries between two offsets are those of one element. -/
theorem offsets_delimit {d : Struc K} {m : Mesh K} (hd : Holds d m) (hv : Valid m)
    {sets : SetsArg} (hs : NoSets sets ∨ HoldsSets d m) {kind : Option String} {es : List Nat}
    (hc : Chosen m sets kind es) {l : List Element} (hl : Elements m es l)
    (hne : l ≠ [] ∨ NoSelection sets kind) {disc : Bool} {ns : List Nat}
    (hn : ChosenNodes m sets kind l disc ns) :
    ∃ con offs, getElements d sets kind disc = .ok (con, offs, l.map Element.typ) ∧
      Ends 0 l offs ∧ offs.length = l.length ∧ offs.getLastD 0 = con.length ∧
      offs.Pairwise (· < ·) ∧
      ∀ (j : Nat) (e : Element), l[j]? = some e → ∃ a b : Nat, (0 :: offs)[j]? = some (a : Int) ∧
        offs[j]? = some (b : Int) ∧ b = a + e.nodes.length ∧
        List.Forall₂ (fun (c : Int) (n : Nat) => ∃ k : Nat, c = k ∧ (ns[k]?).map (· + 1) = some n)
          ((con.drop a).take e.nodes.length) e.nodes := by
  obtain ⟨con, offs, h1, h2, h3⟩ := getElements_ok hd hv hs hc hl hne hn
  have hlen : ∀ {s l os}, Ends s l os → os.length = l.length := by
    intro s l os h
    induction h with
    | nil => rfl
    | cons _ ih => simp [ih]
  have hlast : ∀ {s l os}, Ends s l os →
      os.getLastD s = ((s + (l.flatMap Element.nodes).length : Nat) : Int) := by
    intro s l os h
    induction h with
    | nil => simp
    | @cons s e l os _ ih =>
      rw [List.getLastD_cons, ih, List.flatMap_cons, List.length_append, Nat.add_assoc]
  have hpos : ∀ {s : Nat} {l : List Element} {os}, Ends s l os → (∀ e ∈ l, e.nodes ≠ []) →
      (∀ o ∈ os, (s : Int) < o) ∧ os.Pairwise (· < ·) := by
    intro s l os h hh
    induction h with
    | nil => simp
    | @cons s e l os _ ih =>
      obtain ⟨i1, i2⟩ := ih fun e he => hh e (List.mem_cons_of_mem _ he)
      have hp : 0 < e.nodes.length := List.length_pos_of_ne_nil (hh e List.mem_cons_self)
      refine ⟨?_, List.pairwise_cons.mpr ⟨i1, i2⟩⟩
      intro o ho
      rcases List.mem_cons.mp ho with rfl | ho
      · omega
      · have := i1 o ho; omega
  have hdel : ∀ {s : Nat} {l : List Element} {os}, Ends s l os → ∀ (j : Nat) (e : Element), l[j]? = some e →
      ((s : Int) :: os)[j]? = some ((s + before l j : Nat) : Int) ∧
        os[j]? = some ((s + before l j + e.nodes.length : Nat) : Int) := by
    intro s l os h
    induction h with
    | nil => intro j e h; simp at h
    | @cons s e l os _ ih =>
      intro j e' hj
      cases j with
      | zero =>
        simp only [List.getElem?_cons_zero, Option.some.injEq] at hj
        subst hj
        simp [before_zero]
      | succ j =>
        rw [List.getElem?_cons_succ] at hj ⊢
        obtain ⟨a1, a2⟩ := ih j e' hj
        rw [List.getElem?_cons_succ, before_cons]
        refine ⟨a1.trans ?_, a2.trans ?_⟩ <;> congr 2 <;> omega
  refine ⟨con, offs, h1, h2, hlen h2, ?_, ?_, ?_⟩
  · have := hlast h2
    rw [Nat.zero_add] at this
    rw [show ((0 : Nat) : Int) = 0 from rfl] at this
    rw [this, h3.length_eq]
  · exact (hpos h2 fun e he => (hv.nodes e (mem_elements hl he)).1).2
  · intro j e hj
    obtain ⟨a1, a2⟩ := hdel h2 j e hj
    refine ⟨_, _, a1, a2, rfl, ?_⟩
    rw [Nat.zero_add]
    have := List.forall₂_take (e.nodes.length) (List.forall₂_drop (before l j) h3)
    rwa [flat_part hj] at this

/-- C28: the elements of set `A` -/
example := offsets_delimit Demo.holds Demo.valid (.inr Demo.holdsSets) Demo.chosenA Demo.elementsA
  (.inl (by simp)) Demo.nodesA

/-! ## C31: numbers -/

/-- the numbers of the nodes of a selection -/
theorem nodeNumbers_ok {d : Struc K} {m : Mesh K} (hd : Holds d m) (hv : Valid m)
    {sets : SetsArg} (hs : NoSets sets ∨ HoldsSets d m) {kind : Option String} {es : List Nat}
    (hc : Chosen m sets kind es) {l : List Element} (hl : Elements m es l)
    (hne : l ≠ [] ∨ NoSelection sets kind) {disc : Bool} {ns : List Nat}
    (hn : ChosenNodes m sets kind l disc ns) :
    ∃ ext int, getNodeNumbers d sets kind disc "external" = .ok ext ∧
      getNodeNumbers d sets kind disc "internal" = .ok int ∧
      List.Forall₂ (fun n x => (m.nodes[n]?).map Node.ext = some x) ns ext ∧
      int = ns.map fun n : Nat => ((n + 1 : Nat) : Int) := by
  obtain ⟨nrows, hgn, hnr⟩ := hd.nodes
  have hi := nodeIndices_ok hd hv hs hc hl hne hn
  have hlt := nodes_lt hv hl hn
  obtain ⟨rs, hrs⟩ := forall₂_get (l := nrows) (is := ns) fun n h => by
    rw [hnr.length]; exact hlt n h
  have hnum : ∀ (t : String) (f : NodeRow → Int),
      (t = "external" ∧ f = NodeRow.nodex ∨ t = "internal" ∧ f = NodeRow.nodeno) →
      getNodeNumbers d sets kind disc t = .ok (rs.map f) := by
    intro t f ht
    unfold getNodeNumbers need
    rw [hd.isOpen, hgn]
    simp only [if_true, bind_ok]
    suffices hcol : (if (sets.truthy || kindTruthy kind || disc) = true then (nodeIndices d sets kind disc >>= fun is => npTake (nrows.map f) is)
        else Except.ok (nrows.map f)) = .ok (rs.map f) by
      rcases ht with ⟨rfl, rfl⟩ | ⟨rfl, rfl⟩
      · rw [if_pos rfl]; exact hcol
      · rw [if_neg (by decide), if_pos rfl]; exact hcol
    by_cases hany : (sets.truthy || kindTruthy kind || disc) = true
    · rw [if_pos hany, hi, bind_ok, npTake_map, npTake_nat hrs]; rfl
    · rw [if_neg hany]
      have hsel : NoSelection sets kind := by
        apply noSelection_iff.mpr
        cases h : (sets.truthy || kindTruthy kind)
        · rfl
        · rw [h] at hany; exact absurd rfl hany
      cases hn with
      | places _ => simp at hany
      | used h _ => exact absurd hsel h
      | whole _ =>
        have : rs = nrows := by
          have hl2 := hrs.length_eq
          rw [List.length_range] at hl2
          refine List.ext_getElem (by rw [← hl2, hnr.length]) fun i a b => ?_
          have hq := (List.forall₂_iff_get.mp hrs).2 i (by rw [List.length_range, hl2]; exact a) a
          simp only [List.get_eq_getElem, List.getElem_range] at hq
          rw [List.getElem?_eq_getElem b] at hq
          exact (Option.some.inj hq).symm
        rw [this]
  refine ⟨_, _, hnum _ _ (.inl ⟨rfl, rfl⟩), hnum _ _ (.inr ⟨rfl, rfl⟩), ?_, ?_⟩
  · rw [List.forall₂_map_right_iff]
    refine hrs.imp fun n r h => ?_
    have hlt : n < m.nodes.length := by
      rw [← hnr.length]; exact (List.getElem?_eq_some_iff.mp h).1
    rw [hnr.row (List.getElem?_eq_getElem hlt)] at h
    rw [List.getElem?_eq_getElem hlt, ← Option.some.inj h]; rfl
  · clear hnum hi hlt hn
    induction hrs with
    | nil => rfl
    | cons h _ ih =>
      rw [List.map_cons, List.map_cons, ih]
      have hlt := (List.getElem?_eq_some_iff.mp h).1
      rw [hnr.length] at hlt
      rw [hnr.row (List.getElem?_eq_getElem hlt)] at h
      rw [← Option.some.inj h, Nat.add_comm]

/-- **C31** For every selection: `get_nodenumbers` gives, row by row, the numbers of the nodes of
`get_nodes`, and `get_elementnumbers` those of the elements of `get_elements`; any other number
type raises ValueError. -/
theorem numbers_line_up [Semiring K] {d : Struc K} {m : Mesh K} (hd : Holds d m) (hv : Valid m)
    {sets : SetsArg} (hs : NoSets sets ∨ HoldsSets d m) {kind : Option String} {es : List Nat}
    (hc : Chosen m sets kind es) {l : List Element} (hl : Elements m es l)
    (hne : l ≠ [] ∨ NoSelection sets kind) {disc : Bool} {ns : List Nat}
    (hn : ChosenNodes m sets kind l disc ns) (fuel : Nat) (index : Int) :
    (∃ coords ext int, getNodes d fuel sets kind disc .none index = .ok coords ∧
      getNodeNumbers d sets kind disc "external" = .ok ext ∧
      getNodeNumbers d sets kind disc "internal" = .ok int ∧
      List.Forall₂ (fun n p => (m.nodes[n]?).map Node.pos = some p) ns coords ∧
      List.Forall₂ (fun n x => (m.nodes[n]?).map Node.ext = some x) ns ext ∧
      int = ns.map fun n : Nat => ((n + 1 : Nat) : Int)) ∧
    (∃ con offs typs, getElements d sets kind disc = .ok (con, offs, typs) ∧
      typs = l.map Element.typ ∧
      getElementNumbers d sets kind "external" = .ok (l.map Element.ext) ∧
      getElementNumbers d sets kind "internal" = .ok (es.map fun i : Nat => ((i + 1 : Nat) : Int)) ∧
      es.length = l.length) ∧
    ∀ t, t ≠ "external" → t ≠ "internal" →
      getNodeNumbers d sets kind disc t = .error .valueError ∧
      getElementNumbers d sets kind t = .error .valueError := by
  obtain ⟨rows, hg, hr⟩ := hd.elems
  obtain ⟨nrows, hgn, hnr⟩ := hd.nodes
  have hi := nodeIndices_ok hd hv hs hc hl hne hn
  have hei := elementIndices_ok hd hv hs hc
  obtain ⟨con, offs, h1, h2, h3⟩ := getElements_ok hd hv hs hc hl hne hn
  obtain ⟨coords, h4, h5⟩ := getNodes_ok hd hv hs hc hl hne hn fuel index
  have hlt := nodes_lt hv hl hn
  refine ⟨?_, ?_, ?_⟩
  · obtain ⟨ext, int, q1, q2, q3, q4⟩ := nodeNumbers_ok hd hv hs hc hl hne hn
    exact ⟨coords, ext, int, h4, q1, q2, h5, q3, q4⟩
  · obtain ⟨rs, r1, _, r3, _, _⟩ := elements_rows hr hl
    have hnum : ∀ (t : String) (f : ElemRow → Int),
        (t = "external" ∧ f = ElemRow.elnox ∨ t = "internal" ∧ f = ElemRow.elno) →
        getElementNumbers d sets kind t = .ok (rs.map f) := by
      intro t f ht
      unfold getElementNumbers need
      rw [hd.isOpen, hg]
      simp only [if_true, bind_ok]
      suffices hcol : (if (sets.truthy || kindTruthy kind) = true then (elementIndices d sets kind >>= fun is => npTake (rows.map f) is)
          else Except.ok (rows.map f)) = .ok (rs.map f) by
        rcases ht with ⟨rfl, rfl⟩ | ⟨rfl, rfl⟩
        · rw [if_pos rfl]; exact hcol
        · rw [if_neg (by decide), if_pos rfl]; exact hcol
      by_cases hany : (sets.truthy || kindTruthy kind) = true
      · rw [if_pos hany, hei, bind_ok, npTake_map, npTake_nat r1]; rfl
      · rw [if_neg hany]
        have hsel : NoSelection sets kind := by
          apply noSelection_iff.mpr
          cases h : (sets.truthy || kindTruthy kind)
          · rfl
          · rw [h] at hany; exact absurd rfl hany
        have hes := hc.all hsel
        subst hes
        have : rs = rows := by
          have hl2 := r1.length_eq
          rw [List.length_range] at hl2
          refine List.ext_getElem (by rw [← hl2, hr.length]) fun i a b => ?_
          have hq := (List.forall₂_iff_get.mp r1).2 i (by rw [List.length_range, hl2]; exact a) a
          simp only [List.get_eq_getElem, List.getElem_range] at hq
          rw [List.getElem?_eq_getElem b] at hq
          exact (Option.some.inj hq).symm
        rw [this]
    refine ⟨con, offs, _, h1, rfl, ?_, ?_, List.Forall₂.length_eq hl⟩
    · rw [hnum _ _ (.inl ⟨rfl, rfl⟩), r3]
    · rw [hnum _ _ (.inr ⟨rfl, rfl⟩)]
      congr 1
      have : ∀ {es : List Nat} {l : List Element} {rs : List ElemRow}, Elements m es l →
          List.Forall₂ (fun i x => rows[i]? = some x) es rs →
          rs.map ElemRow.elno = es.map fun i : Nat => ((i + 1 : Nat) : Int) := by
        intro es l rs ha
        unfold Elements at ha
        induction ha generalizing rs with
        | nil => intro hb; cases hb; rfl
        | cons hae _ ih =>
          intro hb
          cases hb with
          | cons hb1 hb2 =>
            rw [List.map_cons, List.map_cons, ih hb2]
            rw [hr.row hae] at hb1
            rw [← Option.some.inj hb1, Nat.add_comm]
      exact this hl r1
  · intro t ht1 ht2
    constructor
    · unfold getNodeNumbers need
      rw [hd.isOpen, hgn]
      simp only [if_true, bind_ok]
      rw [if_neg ht1, if_neg ht2]; rfl
    · unfold getElementNumbers need
      rw [hd.isOpen, hg]
      simp only [if_true, bind_ok]
      rw [if_neg ht1, if_neg ht2]; rfl

/-- C31: the elements of set `A` and their nodes -/
example := numbers_line_up Demo.holds Demo.valid (.inr Demo.holdsSets) Demo.chosenA Demo.elementsA
  (.inl (by simp)) Demo.placesA 0 1
example : getNodeNumbers Demo.object (.one Demo.nameA) none true "external" =
    .ok [11, 12, 13, 14, 15, 13] := rfl
example : getElementNumbers Demo.object (.one Demo.nameA) none "external" = .ok [102, 104] := rfl

/-! ## C29: sets -/

/-- the internal numbers of the elements of a selection -/
theorem elementNumbers_ok {d : Struc K} {m : Mesh K} (hd : Holds d m) (hv : Valid m)
    {sets : SetsArg} (hs : NoSets sets ∨ HoldsSets d m) {kind : Option String} {es : List Nat}
    (hc : Chosen m sets kind es) :
    getElementNumbers d sets kind "internal" =
      .ok (es.map fun i : Nat => ((i + 1 : Nat) : Int)) := by
  obtain ⟨rows, hg, hr⟩ := hd.elems
  have hei := elementIndices_ok hd hv hs hc
  have hlt : ∀ i ∈ es, i < m.elems.length := by
    obtain ⟨P, Q, _, _, _, hmem⟩ := hc
    intro i hi
    obtain ⟨e, he, _⟩ := (hmem i).mp hi
    exact (List.getElem?_eq_some_iff.mp he).1
  obtain ⟨l, hl1, hl2⟩ := rows_at hr hlt
  have hno : l.map ElemRow.elno = es.map fun i : Nat => ((i + 1 : Nat) : Int) := by
    clear hl1 hei hc hlt
    induction hl2 with
    | nil => rfl
    | cons h _ ih =>
      obtain ⟨e, _, h2, _⟩ := h
      rw [List.map_cons, List.map_cons, ih, h2]
  unfold getElementNumbers need
  rw [hd.isOpen, hg]
  simp only [if_true, bind_ok]
  rw [if_neg (by decide)]
  by_cases hany : (sets.truthy || kindTruthy kind) = true
  · rw [if_pos hany, hei, bind_ok, npTake_map, hl1, ← hno]; rfl
  · rw [if_neg hany]
    have hsel : NoSelection sets kind := by
      apply noSelection_iff.mpr
      cases h : (sets.truthy || kindTruthy kind)
      · rfl
      · rw [h] at hany; exact absurd rfl hany
    have hes := hc.all hsel
    subst hes
    congr 1
    have := rows_all hr
    generalize List.range m.elems.length = is at this
    clear hno hl1 hl2 hlt hei hc hg hr
    induction this with
    | nil => rfl
    | cons h _ ih =>
      obtain ⟨e, _, h2, _⟩ := h
      rw [List.map_cons, List.map_cons, ih, h2]

/-- **C29** Selecting by a sequence of set names: the numbers of the elements in the union of the
named sets, each once, in increasing order. -/
theorem sets_union {d : Struc K} {m : Mesh K} (hd : Holds d m) (hs : HoldsSets d m) (hv : Valid m)
    {names : List Str} (hne : names ≠ []) (hknown : ∀ n ∈ names, ∃ id, FirstId m n id)
    (hrec : ∃ n ∈ names, ∃ s, RecordOf m n s) :
    ∃ r, getElementNumbers d (.many names) none "internal" = .ok r ∧ r.Pairwise (· < ·) ∧
      ∀ x, x ∈ r ↔ ∃ k : Nat, x = k ∧ ∃ n ∈ names, InSet m n k := by
  obtain ⟨es, _, h2, h3, h4⟩ := setMemberIndices_ok hd.isOpen hs hv.sets hknown hrec
  have hc : Chosen m (.many names) none es := by
    refine ⟨_, _, .many hne hknown hrec, .all, h2, fun i => ?_⟩
    rw [h4]
    constructor
    · intro h
      exact ⟨_, List.getElem?_eq_getElem (h3 i ((h4 i).mpr h)), h, trivial⟩
    · rintro ⟨_, _, h, _⟩; exact h
  refine ⟨_, elementNumbers_ok hd hv (.inr hs) hc, ?_, ?_⟩
  · rw [List.pairwise_map]; exact h2.imp fun h => by omega
  · intro x
    rw [List.mem_map]
    constructor
    · rintro ⟨i, hi, rfl⟩; exact ⟨i + 1, rfl, (h4 i).mp hi⟩
    · rintro ⟨k, rfl, n, hn, s, hsr, hk⟩
      have := hv.sets s hsr.1 hsr.2.2 k hk
      refine ⟨k - 1, (h4 _).mpr ⟨n, hn, s, hsr, ?_⟩, ?_⟩
      · rw [Nat.sub_add_cancel this.1]; exact hk
      · rw [Nat.sub_add_cancel this.1]

/-- C29: the sets `B` and `A`, the latter named twice -/
example := sets_union Demo.holds Demo.holdsSets Demo.valid
  (names := [Demo.nameB, Demo.nameA, Demo.nameA]) (by simp)
  (by
    intro n hn
    simp only [List.mem_cons, List.not_mem_nil, or_false, or_self] at hn
    rcases hn with rfl | rfl
    · exact ⟨_, Demo.firstB⟩
    · exact ⟨_, Demo.firstA⟩)
  ⟨Demo.nameA, by simp, Demo.recordA⟩
example : getElementNumbers Demo.object (.many [Demo.nameB, Demo.nameA, Demo.nameA]) none "internal" =
    .ok [1, 2, 4] := rfl

/-- **C29** A set name that is not defined raises ConditionError in every selection. -/
theorem unknown_set {d : Struc K} {m : Mesh K} (hd : Holds d m) (hs : HoldsSets d m)
    {names : List Str} (h : ∃ n ∈ names, ∀ id, ¬ FirstId m n id) (kind : Option String)
    (disc : Bool) :
    getElementNumbers d (.many names) kind "internal" = .error .conditionError ∧
    getElements d (.many names) kind disc = .error .conditionError := by
  obtain ⟨rows, hg, hr⟩ := hd.elems
  obtain ⟨mrows, arr, hm, hf⟩ := hs.sets
  have hne : (SetsArg.many names).truthy = true := by
    obtain ⟨n, hn, _⟩ := h
    cases names with
    | nil => simp at hn
    | cons a l => rfl
  have hidx : elementIndices d (.many names) kind = .error .conditionError := by
    unfold elementIndices
    rw [if_pos hne]
    have : setMemberIndices d (SetsArg.many names).names (SetsArg.many names).more 2 = .error .conditionError := by
      unfold setMemberIndices need
      rw [hd.isOpen, hs.names, hm]
      simp only [if_true, bind_ok]
      rw [mapM_error (e := .conditionError)]
      · rfl
      · intro n _
        by_cases hk : ∃ id, FirstId m n id
        · obtain ⟨id, hk⟩ := hk
          exact .inl ⟨_, membersOf_ok hf hk⟩
        · exact .inr (membersOf_unknown (not_exists.mp hk))
      · obtain ⟨n, hn, hu⟩ := h
        exact ⟨n, hn, membersOf_unknown hu⟩
    rw [this]; rfl
  constructor
  · unfold getElementNumbers need
    rw [hd.isOpen, hg, hne]
    simp only [if_true, bind_ok]
    rw [if_neg (by decide), hidx]; rfl
  · unfold getElements need
    rw [hd.isOpen, hg, hne]
    simp only [if_true, bind_ok, Bool.true_or]
    rw [hidx]; rfl

/-- **C29** Defined names without any record of elements: ValueError. -/
theorem no_record_of_elements {d : Struc K} {m : Mesh K} (hd : Holds d m) (hs : HoldsSets d m)
    {names : List Str} (hne : names ≠ []) (hknown : ∀ n ∈ names, ∃ id, FirstId m n id)
    (hno : ∀ n ∈ names, ∀ s, ¬ RecordOf m n s) (kind : Option String) (disc : Bool) :
    getElementNumbers d (.many names) kind "internal" = .error .valueError ∧
    getElements d (.many names) kind disc = .error .valueError := by
  obtain ⟨rows, hg, hr⟩ := hd.elems
  obtain ⟨mrows, arr, hm, hf⟩ := hs.sets
  have ht : (SetsArg.many names).truthy = true := by
    cases names with
    | nil => exact absurd rfl hne
    | cons a l => rfl
  have hparts : ∀ l : List Str, (∀ n ∈ l, n ∈ names) →
      ∃ parts, l.mapM (membersOf (m.names.map fun p => ⟨p.2, p.1⟩) mrows arr 2) = .ok parts ∧
        parts.flatten = [] := by
    intro l hl
    induction l with
    | nil => exact ⟨[], rfl, rfl⟩
    | cons a l ih =>
      obtain ⟨parts, h1, h2⟩ := ih fun n hn => hl n (List.mem_cons_of_mem _ hn)
      have ha := hl a List.mem_cons_self
      obtain ⟨id, hid⟩ := hknown a ha
      refine ⟨_, by rw [List.mapM_cons, membersOf_ok hf hid, bind_ok, h1]; rfl, ?_⟩
      rw [List.flatten_cons, h2, List.append_nil, List.map_eq_nil_iff, List.filter_eq_nil_iff]
      intro x hx hp
      rw [decide_eq_true_eq] at hp
      exact hno a ha x ⟨hx, by rw [hp.1]; exact hid, hp.2⟩
  obtain ⟨parts, hp1, hp2⟩ := hparts names fun _ h => h
  have hidx : elementIndices d (.many names) kind = .error .valueError := by
    unfold elementIndices
    rw [if_pos ht]
    have : setMemberIndices d (SetsArg.many names).names (SetsArg.many names).more 2 = .error .valueError := by
      unfold setMemberIndices need
      rw [hd.isOpen, hs.names, hm]
      simp only [if_true, bind_ok]
      unfold SetsArg.names
      rw [hp1, bind_ok, hp2]; rfl
    rw [this]; rfl
  constructor
  · unfold getElementNumbers need
    rw [hd.isOpen, hg, ht]
    simp only [if_true, bind_ok, Bool.true_or]
    rw [if_neg (by decide), hidx]; rfl
  · unfold getElements need
    rw [hd.isOpen, hg, ht]
    simp only [if_true, bind_ok, Bool.true_or]
    rw [hidx]; rfl

/-- C29: a set of nodes only -/
example := no_record_of_elements (d := { Demo.object with gsetmemb := some ([⟨1, 1, 0, 1⟩], [6]) })
  (m := { Demo.mesh with sets := [⟨1, 1, [6]⟩] })
  ⟨rfl, Demo.holds.nodes, Demo.holds.coords, Demo.holds.elems⟩
  ⟨rfl, _, _, rfl, .cons ⟨rfl, rfl, 0, 1, rfl, rfl, by decide, by decide, rfl⟩ .nil⟩
  (names := [Demo.nameA]) (by simp)
  (by intro n hn; obtain rfl := List.mem_singleton.mp hn; exact ⟨_, Demo.firstA⟩)
  (by
    rintro n _ s ⟨hs, _, hk⟩
    obtain rfl := List.mem_singleton.mp hs
    exact absurd hk (by decide)) none false

theorem membersOf_error {t : List NameRow} {g : List MembRow} {a : List Int} {k : Int} {n : Str}
    {e : Err} (h : membersOf t g a k n = .error e) : e = .conditionError := by
  unfold membersOf getrow at h
  cases hf : t.find? fun r => decide (r.name = n) with
  | none => rw [hf] at h; cases h; rfl
  | some r => rw [hf] at h; cases h

theorem mapM_cases {α β : Type} (f : α → Except Err β) (e : Err)
    (he : ∀ x e', f x = .error e' → e' = e) (l : List α) :
    ((∃ x ∈ l, f x = .error e) ∧ l.mapM f = .error e) ∨
    ∃ r, l.mapM f = .ok r ∧ (∀ y, y ∈ r ↔ ∃ x ∈ l, f x = .ok y) ∧ ∀ x ∈ l, ∃ y, f x = .ok y := by
  induction l with
  | nil => exact .inr ⟨[], rfl, by simp, by simp⟩
  | cons a l ih =>
    rw [List.mapM_cons]
    cases hfa : f a with
    | error e' =>
      obtain rfl := he _ _ hfa
      exact .inl ⟨⟨a, List.mem_cons_self, hfa⟩, rfl⟩
    | ok b =>
      rcases ih with ⟨⟨x, hx, hxe⟩, h⟩ | ⟨r, h1, h2, h3⟩
      · exact .inl ⟨⟨x, List.mem_cons_of_mem _ hx, hxe⟩, by rw [bind_ok, h]; rfl⟩
      · refine .inr ⟨b :: r, by rw [bind_ok, h1]; rfl, ?_, ?_⟩
        · intro y
          rw [List.mem_cons, h2]
          constructor
          · rintro (rfl | ⟨x, hx, h⟩)
            · exact ⟨a, List.mem_cons_self, hfa⟩
            · exact ⟨x, List.mem_cons_of_mem _ hx, h⟩
          · rintro ⟨x, hx, h⟩
            rcases List.mem_cons.mp hx with rfl | hx
            · rw [hfa] at h; cases h; exact .inl rfl
            · exact .inr ⟨x, hx, h⟩
        · intro x hx
          rcases List.mem_cons.mp hx with rfl | hx
          · exact ⟨b, hfa⟩
          · exact h3 x hx

theorem setMemberIndices_congr (d : Struc K) {names names' : List Str} (more : Bool)
    (istype : Int) (h : ∀ n, n ∈ names ↔ n ∈ names') :
    setMemberIndices d names more istype = setMemberIndices d names' more istype := by
  unfold setMemberIndices
  cases ht : need d.isOpen d.tdsetnam with
  | error e => rfl
  | ok t =>
    cases hg : need d.isOpen d.gsetmemb with
    | error e => rfl
    | ok g =>
      simp only [bind_ok]
      have c1 := mapM_cases (membersOf t g.1 g.2 istype) .conditionError
        (fun _ _ h => membersOf_error h) names
      have c2 := mapM_cases (membersOf t g.1 g.2 istype) .conditionError
        (fun _ _ h => membersOf_error h) names'
      rcases c1 with ⟨⟨x, hx, hxe⟩, e1⟩ | ⟨r, e1, m1, o1⟩
      · rcases c2 with ⟨_, e2⟩ | ⟨r', e2, m2, o2⟩
        · rw [e1, e2]
        · obtain ⟨y, hy⟩ := o2 x ((h x).mp hx)
          rw [hxe] at hy; cases hy
      · rcases c2 with ⟨⟨x, hx, hxe⟩, e2⟩ | ⟨r', e2, m2, o2⟩
        · obtain ⟨y, hy⟩ := o1 x ((h x).mpr hx)
          rw [hxe] at hy; cases hy
        · rw [e1, e2, bind_ok, bind_ok]
          have hmem : ∀ y, y ∈ r ↔ y ∈ r' := by
            intro y
            rw [m1, m2]
            constructor
            · rintro ⟨x, hx, hy⟩; exact ⟨x, (h x).mp hx, hy⟩
            · rintro ⟨x, hx, hy⟩; exact ⟨x, (h x).mpr hx, hy⟩
          have hflat : ∀ y, y ∈ r.flatten ↔ y ∈ r'.flatten := by
            intro y
            simp only [List.mem_flatten, hmem]
          by_cases hn : r.flatten = []
          · have hn' : r'.flatten = [] := List.eq_nil_iff_forall_not_mem.mpr fun y hy => by
              have := (hflat y).mpr hy
              rw [hn] at this; simp at this
            rw [hn, hn']
          · have hn' : r'.flatten ≠ [] := fun he => hn (List.eq_nil_iff_forall_not_mem.mpr fun y hy => by
              have := (hflat y).mp hy
              rw [he] at this; simp at this)
            rw [npConcat_ok hn, npConcat_ok hn', bind_ok, bind_ok]
            have : npUnique r.flatten.flatten = npUnique r'.flatten.flatten := by
              apply sorted_ext (npUnique_sorted _) (npUnique_sorted _)
              intro x
              rw [mem_npUnique, mem_npUnique, List.mem_flatten, List.mem_flatten]
              simp only [hflat]
            rw [this]

/-- C29: set `C` is not defined -/
example := unknown_set Demo.holds Demo.holdsSets (names := [Demo.nameA, Demo.nameC])
  ⟨Demo.nameC, by simp, Demo.noC⟩ (some "beam") false

/-- a getter depends on `sets` only through the elements selected and whether there are names -/
theorem elementIndices_congr (d : Struc K) {s s' : SetsArg} (kind : Option String)
    (ht : s.truthy = s'.truthy) (hm : s.more = s'.more) (h : ∀ n, n ∈ s.names ↔ n ∈ s'.names) :
    elementIndices d s kind = elementIndices d s' kind := by
  unfold elementIndices
  rw [ht, hm, setMemberIndices_congr d _ 2 h]

/-- **C29** The order of the names and repeated names do not matter, for any data object (even one
with inconsistent tables) and every getter; a single name is the same as a sequence of one name. -/
theorem names_order_irrelevant [Semiring K] (d : Struc K) {s s' : SetsArg}
    (hs : (∃ names names', s = .many names ∧ s' = .many names' ∧ ∀ n, n ∈ names ↔ n ∈ names') ∨
      ∃ n, n ≠ [] ∧ s = .one n ∧ s' = .many [n])
    (kind : Option String) (disc : Bool) (t : String) (fuel : Nat) (tr : TransArg K) (index run : Int)
    (cases : CasesArg) :
    getElements d s kind disc = getElements d s' kind disc ∧
    getElementNumbers d s kind t = getElementNumbers d s' kind t ∧
    getNodes d fuel s kind disc tr index = getNodes d fuel s' kind disc tr index ∧
    getNodeNumbers d s kind disc t = getNodeNumbers d s' kind disc t ∧
    getNodeResults d t run cases s kind disc = getNodeResults d t run cases s' kind disc ∧
    getSectionProperties d s = getSectionProperties d s' ∧
    getShellThicknesses d s = getShellThicknesses d s' := by
  have ht : s.truthy = s'.truthy := by
    rcases hs with ⟨a, b, rfl, rfl, h⟩ | ⟨n, hn, rfl, rfl⟩
    · have : a = [] ↔ b = [] := by
        rw [List.eq_nil_iff_forall_not_mem, List.eq_nil_iff_forall_not_mem]
        exact forall_congr' fun n => not_congr (h n)
      simp only [SetsArg.truthy, ne_eq, this]
    · simp [SetsArg.truthy, hn]
  have hmore : s.more = s'.more := by
    rcases hs with ⟨a, b, rfl, rfl, _⟩ | ⟨n, _, rfl, rfl⟩ <;> rfl
  have hm : ∀ n, n ∈ s.names ↔ n ∈ s'.names := by
    rcases hs with ⟨a, b, rfl, rfl, h⟩ | ⟨n, hn, rfl, rfl⟩
    · exact h
    · exact fun _ => Iff.rfl
  have he : ∀ k, elementIndices d s k = elementIndices d s' k := fun k =>
    elementIndices_congr d k ht hmore hm
  have hn : ∀ k b, nodeIndices d s k b = nodeIndices d s' k b := by
    intro k b
    unfold nodeIndices
    rw [ht, he]
  have hnn : ∀ k b t, getNodeNumbers d s k b t = getNodeNumbers d s' k b t := by
    intro k b t
    unfold getNodeNumbers
    rw [ht, hn]
  refine ⟨?_, ?_, ?_, hnn _ _ _, ?_, ?_, ?_⟩
  · unfold getElements
    rw [ht, he]
  · unfold getElementNumbers
    rw [ht, he]
  · unfold getNodes
    rw [hn]
  · unfold getNodeResults
    rw [hnn, hn]
  · unfold getSectionProperties
    rw [he]
  · unfold getShellThicknesses
    rw [he]

example := names_order_irrelevant Demo.object (s := .many [Demo.nameA, Demo.nameB])
  (s' := .many [Demo.nameB, Demo.nameB, Demo.nameA])
  (.inl ⟨_, _, rfl, rfl, by simp; tauto⟩) none true "displacement" 0 .none 1 1 .all

/-! ## C30: kinds -/

theorem wantsKind_unique {k : Option String} {Q Q' : Int → Prop} (h : WantsKind k Q)
    (h' : WantsKind k Q') (t : Int) : Q t ↔ Q' t := by
  have : ∀ k', WantsKind k' Q' → k = k' → (Q t ↔ Q' t) := by
    clear h'
    intro k' h' e
    cases h <;> cases h' <;> first | exact Iff.rfl | exact absurd e (by decide)
  exact this k h' rfl

theorem wantsKind_beam {Q : Int → Prop} (h : WantsKind (some "beam") Q) :
    Q = fun t => t = 15 ∨ t = 23 := funext fun t => propext (wantsKind_unique h .beam t)

theorem wantsKind_shell {Q : Int → Prop} (h : WantsKind (some "shell") Q) :
    Q = fun t => t = 24 ∨ t = 25 ∨ t = 26 ∨ t = 28 :=
  funext fun t => propext (wantsKind_unique h .shell t)

/-- **C30** Beams and shells among the elements of any selection by sets: both are parts of the
selection in its order, no element is in both, and each element of a supported type is in one of
them.  (Numbers are internal element numbers; `e` is the element with number `n`.) -/
theorem kinds_partition {d : Struc K} {m : Mesh K} (hd : Holds d m) (hv : Valid m)
    {sets : SetsArg} (hs : NoSets sets ∨ HoldsSets d m) {es eb eh : List Nat}
    (hc : Chosen m sets none es) (hb : Chosen m sets (some "beam") eb)
    (hh : Chosen m sets (some "shell") eh) :
    ∃ all beams shells, getElementNumbers d sets none "internal" = .ok all ∧
      getElementNumbers d sets (some "beam") "internal" = .ok beams ∧
      getElementNumbers d sets (some "shell") "internal" = .ok shells ∧
      beams.Sublist all ∧ shells.Sublist all ∧ (∀ n ∈ beams, n ∉ shells) ∧
      ∀ (i : Nat) (e : Element), m.elems[i]? = some e → ((i + 1 : Nat) : Int) ∈ all →
        (((i + 1 : Nat) : Int) ∈ beams ↔ e.typ ∈ [15, 23]) ∧
        (((i + 1 : Nat) : Int) ∈ shells ↔ e.typ ∈ [24, 25, 26, 28]) := by
  refine ⟨_, _, _, elementNumbers_ok hd hv hs hc, elementNumbers_ok hd hv hs hb,
    elementNumbers_ok hd hv hs hh, ?_⟩
  obtain ⟨P, Q, hP, hQ, s1, m1⟩ := hc
  obtain ⟨P2, Q2, hP2, hQ2, s2, m2⟩ := hb
  obtain ⟨P3, Q3, hP3, hQ3, s3, m3⟩ := hh
  have huniq : ∀ {P P' : Nat → Prop}, WantsSets m sets P → WantsSets m sets P' →
      ∀ n, P n ↔ P' n := by
    intro P P' h h' n
    rcases wantsSets_truthy h with ⟨t, _, _, _, h⟩ | ⟨t, _, h⟩
    · rcases wantsSets_truthy h' with ⟨_, _, _, _, h'⟩ | ⟨t', _, h'⟩
      · rw [h, h']
      · rw [t] at t'; cases t'
    · rcases wantsSets_truthy h' with ⟨t', _, _, _, h'⟩ | ⟨_, _, h'⟩
      · rw [t] at t'; cases t'
      · exact ⟨fun _ => h' n, fun _ => h n⟩
  have e2 := huniq hP2 hP
  have e3 := huniq hP3 hP
  cases hQ
  have hQ2 := wantsKind_beam hQ2
  have hQ3 := wantsKind_shell hQ3
  subst hQ2 hQ3
  have inj : ∀ (l : List Nat) (i : Nat),
      ((i + 1 : Nat) : Int) ∈ l.map (fun i : Nat => ((i + 1 : Nat) : Int)) ↔ i ∈ l := by
    intro l i
    rw [List.mem_map]
    constructor
    · rintro ⟨j, hj, h⟩
      have : j = i := by omega
      rwa [← this]
    · intro h; exact ⟨i, h, rfl⟩
  have sub : ∀ {a b : List Nat}, a.Pairwise (· < ·) → b.Pairwise (· < ·) → (∀ i ∈ a, i ∈ b) →
      a.Sublist b := by
    intro a b ha hb hab
    have : a = b.filter (fun i => decide (i ∈ a)) :=
      sorted_ext ha (hb.filter _) fun x => by
        rw [List.mem_filter, decide_eq_true_eq]
        exact ⟨fun h => ⟨hab x h, h⟩, fun h => h.2⟩
    rw [this]
    exact List.filter_sublist
  refine ⟨?_, ?_, ?_, ?_⟩
  · refine (sub s2 s1 fun i hi => ?_).map _
    obtain ⟨e, h1, h2, h3⟩ := (m2 i).mp hi
    exact (m1 i).mpr ⟨e, h1, (e2 _).mp h2, trivial⟩
  · refine (sub s3 s1 fun i hi => ?_).map _
    obtain ⟨e, h1, h2, h3⟩ := (m3 i).mp hi
    exact (m1 i).mpr ⟨e, h1, (e3 _).mp h2, trivial⟩
  · intro n hn hn'
    obtain ⟨i, hi, rfl⟩ := List.mem_map.mp hn
    have hi' := (inj _ _).mp hn'
    obtain ⟨e, h1, _, h3⟩ := (m2 i).mp hi
    obtain ⟨e', h1', _, h3'⟩ := (m3 i).mp hi'
    rw [h1] at h1'
    obtain rfl := Option.some.inj h1'
    omega
  · intro i e he hall
    obtain ⟨_, _, hPi, _⟩ := (m1 i).mp ((inj _ _).mp hall)
    rw [inj, inj, m2, m3]
    constructor
    · constructor
      · rintro ⟨e', h1, _, h3⟩
        rw [he] at h1; obtain rfl := Option.some.inj h1
        simpa using h3
      · intro h; exact ⟨e, he, (e2 _).mpr hPi, by simpa using h⟩
    · constructor
      · rintro ⟨e', h1, _, h3⟩
        rw [he] at h1; obtain rfl := Option.some.inj h1
        simpa using h3
      · intro h; exact ⟨e, he, (e3 _).mpr hPi, by simpa using h⟩

/-- C30: the beams and the shells of set `A` -/
example := kinds_partition Demo.holds Demo.valid (.inr Demo.holdsSets) Demo.chosenA
  Demo.chosenBeamA Demo.chosenShellA

/-- **C30** Selecting by sets and kind is the intersection of both selections. -/
theorem kind_and_sets {d : Struc K} {m : Mesh K} (hd : Holds d m) (hv : Valid m)
    {sets : SetsArg} (hs : NoSets sets ∨ HoldsSets d m) {kind : Option String}
    {es ek eb : List Nat} (hc : Chosen m sets none es) (hk : Chosen m .none kind ek)
    (hb : Chosen m sets kind eb) :
    ∃ a k b, getElementNumbers d sets none "internal" = .ok a ∧
      getElementNumbers d .none kind "internal" = .ok k ∧
      getElementNumbers d sets kind "internal" = .ok b ∧ b = a.filter fun n => n ∈ k := by
  refine ⟨_, _, _, elementNumbers_ok hd hv hs hc, elementNumbers_ok hd hv (.inl (.inl rfl)) hk,
    elementNumbers_ok hd hv hs hb, ?_⟩
  obtain ⟨P, Q, hP, hQ, s1, m1⟩ := hc
  obtain ⟨P2, Q2, hP2, hQ2, s2, m2⟩ := hk
  obtain ⟨P3, Q3, hP3, hQ3, s3, m3⟩ := hb
  cases hQ
  cases hP2
  have e3 : ∀ n, P3 n ↔ P n := by
    intro n
    rcases wantsSets_truthy hP with ⟨t, _, _, _, h⟩ | ⟨t, _, h⟩
    · rcases wantsSets_truthy hP3 with ⟨_, _, _, _, h'⟩ | ⟨t', _, h'⟩
      · rw [h, h']
      · rw [t] at t'; cases t'
    · rcases wantsSets_truthy hP3 with ⟨t', _, _, _, h'⟩ | ⟨_, _, h'⟩
      · rw [t] at t'; cases t'
      · exact ⟨fun _ => h n, fun _ => h' n⟩
  have q3 : ∀ t, Q3 t ↔ Q2 t := by
    intro t
    exact wantsKind_unique hQ3 hQ2 t
  refine sorted_ext (List.pairwise_map.mpr (s3.imp fun h => by omega))
    ((List.pairwise_map.mpr (s1.imp fun h => by omega)).filter _) fun x => ?_
  rw [List.mem_filter, decide_eq_true_eq, List.mem_map, List.mem_map, List.mem_map]
  constructor
  · rintro ⟨i, hi, rfl⟩
    obtain ⟨e, h1, h2, h3⟩ := (m3 i).mp hi
    exact ⟨⟨i, (m1 i).mpr ⟨e, h1, (e3 _).mp h2, trivial⟩, rfl⟩,
      ⟨i, (m2 i).mpr ⟨e, h1, trivial, (q3 _).mp h3⟩, rfl⟩⟩
  · rintro ⟨⟨i, hi, rfl⟩, j, hj, h⟩
    have : j = i := by omega
    subst this
    obtain ⟨e, h1, h2, _⟩ := (m1 j).mp hi
    obtain ⟨e', h1', _, h3⟩ := (m2 j).mp hj
    rw [h1] at h1'; obtain rfl := Option.some.inj h1'
    exact ⟨j, (m3 j).mpr ⟨e, h1, (e3 _).mpr h2, (q3 _).mpr h3⟩, rfl⟩

/-- C30: the beams of set `A` -/
example := kind_and_sets Demo.holds Demo.valid (.inr Demo.holdsSets) Demo.chosenA
  Demo.chosenBeam Demo.chosenBeamA
example : getElementNumbers Demo.object (.one Demo.nameA) (some "beam") "internal" = .ok [4] := rfl

/-- **C30** Any other kind raises ValueError, with and without (known) sets. -/
theorem other_kind {d : Struc K} {m : Mesh K} (hd : Holds d m) (hv : Valid m) {sets : SetsArg}
    (hs : NoSets sets ∨ HoldsSets d m) {es : List Nat} (hc : Chosen m sets none es)
    {kind : String} (h0 : kind ≠ "") (h1 : kind ≠ "beam") (h2 : kind ≠ "shell") (disc : Bool) :
    getElementNumbers d sets (some kind) "internal" = .error .valueError ∧
    getElements d sets (some kind) disc = .error .valueError := by
  obtain ⟨rows, hg, hr⟩ := hd.elems
  have hk : kindTruthy (some kind) = true := by simpa [kindTruthy] using h0
  have hof : ∀ l, ofKind kind l = .error .valueError := by
    intro l; unfold ofKind; rw [if_neg h1, if_neg h2]
  have hei := elementIndices_ok hd hv hs hc
  have hidx : elementIndices d sets (some kind) = .error .valueError := by
    unfold elementIndices at hei ⊢
    by_cases ht : sets.truthy = true
    · rw [if_pos ht] at hei ⊢
      obtain ⟨is, hi1, hi2⟩ := bind_eq_ok.mp hei
      rw [hi1, bind_ok, if_pos hk]
      rw [if_neg (by decide)] at hi2
      injection hi2 with hi2
      subst hi2
      have hlt : ∀ i ∈ es, i < m.elems.length := by
        obtain ⟨P, Q, _, _, _, hmem⟩ := hc
        intro i hi
        obtain ⟨e, he, _⟩ := (hmem i).mp hi
        exact (List.getElem?_eq_some_iff.mp he).1
      obtain ⟨l, hl1, _⟩ := rows_at hr hlt
      unfold elementKindIndices need
      rw [hd.isOpen, hg]
      simp only [if_true, bind_ok, Option.getD_some]
      rw [hl1, bind_ok, hof]
    · rw [if_neg ht, if_pos hk]
      unfold elementKindIndices need
      rw [hd.isOpen, hg]
      simp only [if_true, bind_ok, Option.getD_some, hof]
  constructor
  · unfold getElementNumbers need
    rw [hd.isOpen, hg, hk]
    simp only [if_true, bind_ok, Bool.or_true]
    rw [if_neg (by decide), hidx]; rfl
  · unfold getElements need
    rw [hd.isOpen, hg, hk]
    simp only [if_true, bind_ok, Bool.or_true]
    rw [hidx]; rfl

example := other_kind Demo.holds Demo.valid (.inr Demo.holdsSets) Demo.chosenA
  (kind := "solid") (by decide) (by decide) (by decide) true

/-- A selection without elements: the numbers are empty, but `get_elements` and `get_nodes` raise
ValueError (there is nothing to concatenate). -/
theorem empty_selection [Semiring K] {d : Struc K} {m : Mesh K} (hd : Holds d m) (hv : Valid m)
    {sets : SetsArg} (hs : NoSets sets ∨ HoldsSets d m) {kind : Option String}
    (hc : Chosen m sets kind []) (hsel : ¬ NoSelection sets kind) (disc : Bool) (fuel : Nat)
    (tr : TransArg K) (index : Int) :
    getElementNumbers d sets kind "internal" = .ok [] ∧
    getElements d sets kind disc = .error .valueError ∧
    getNodes d fuel sets kind disc tr index = .error .valueError := by
  obtain ⟨rows, hg, hr⟩ := hd.elems
  have hei := elementIndices_ok hd hv hs hc
  have hb : (sets.truthy || kindTruthy kind) = true := by
    cases h : (sets.truthy || kindTruthy kind)
    · exact absurd (noSelection_iff.mpr h) hsel
    · rfl
  refine ⟨elementNumbers_ok hd hv hs hc, ?_, ?_⟩
  · unfold getElements need
    rw [hd.isOpen, hg]
    simp only [if_true, bind_ok]
    rw [if_pos hb, hei, bind_ok, List.map_nil, connectivity_empty hd]; rfl
  · unfold getNodes nodeIndices need
    rw [hd.isOpen, hg, hd.coords]
    simp only [if_true, bind_ok]
    rw [if_pos hb, hei, bind_ok, List.map_nil, connectivity_empty hd]; rfl

/-- there are no beams in set `S` -/
example := empty_selection Demo.holds Demo.valid (.inr Demo.holdsSets) Demo.chosenBeamS
  (by rintro ⟨_, h | h⟩ <;> simp at h) false 0 .none 1

/-- A selection of elements none of which has nodes: with `disconnected` the connectivity is empty,
without it `get_elements` raises ValueError. -/
theorem nodeless_selection {d : Struc K} {m : Mesh K} (hd : Holds d m)
    (hv : ∀ s ∈ m.sets, s.kind = 2 → ∀ n ∈ s.members, 1 ≤ n ∧ n ≤ m.elems.length)
    {sets : SetsArg} (hs : NoSets sets ∨ HoldsSets d m) {kind : Option String} {es : List Nat}
    (hc : Chosen m sets kind es) (hsel : ¬ NoSelection sets kind) {l : List Element}
    (hl : Elements m es l) (hne : l ≠ []) (hn : ∀ e ∈ l, e.nodes = []) :
    getElements d sets kind false = .error .valueError ∧
    ∃ offs, getElements d sets kind true = .ok ([], offs, l.map Element.typ) ∧ Ends 0 l offs := by
  obtain ⟨rows, hg, hr⟩ := hd.elems
  have hei := elementIndices_of hd hv hs hc
  have hb : (sets.truthy || kindTruthy kind) = true := by
    cases h : (sets.truthy || kindTruthy kind)
    · exact absurd (noSelection_iff.mpr h) hsel
    · rfl
  obtain ⟨offs, hcon, hends⟩ := connectivity_ok hd hl hne
  have hflat : l.flatMap Element.nodes = [] := by
    rw [List.flatMap_eq_nil_iff]; exact hn
  obtain ⟨rs, q1, q2, q3, -⟩ := elements_rows hr hl
  constructor
  · unfold getElements need
    rw [hd.isOpen, hg]
    simp only [if_true, bind_ok]
    rw [if_pos hb, hei, bind_ok, hcon, hflat]
    simp only [bind_ok]
    rw [npTake_map, npTake_nat q1]
    rfl
  · refine ⟨offs, ?_, hends⟩
    unfold getElements need
    rw [hd.isOpen, hg]
    simp only [if_true, bind_ok]
    rw [if_pos hb, hei, bind_ok, hcon, hflat]
    simp only [bind_ok]
    rw [npTake_map, npTake_nat q1]
    simp [Except.map, bind, Except.bind, q2, npArange]

/-- two beams without nodes -/
example := nodeless_selection (K := Int) (kind := some "beam") (sets := .none) (es := [0, 1])
  (m := { nodes := [], elems := [⟨101, 15, []⟩, ⟨102, 23, []⟩] })
  (d := { isOpen := true, gnode := some [], gcoord := some [],
          gelmnt1 := some ([⟨101, 1, 15, 0, 0⟩, ⟨102, 2, 23, 0, 0⟩], []) })
  ⟨rfl, ⟨_, rfl, .nil⟩, rfl, ⟨_, rfl, .cons (.cons .nil)⟩⟩ (by simp) (.inl (.inl rfl))
  ⟨_, _, .all, .beam, by decide, fun i => by
    rcases i with _ | _ | i <;> simp⟩
  (by rintro ⟨_, h | h⟩ <;> simp at h) (.cons rfl (.cons rfl .nil)) (by simp) (by simp)

end Verif.Data
