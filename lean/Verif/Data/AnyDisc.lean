import Verif.Data.AnyResDemo
/-!
# C83: node results for each place of each element, for any records

`get_noderesults` with `disconnected=True` in terms of what it gives without.
-/

namespace Verif.Data
open Verif
open Verif.Seq (Str)

variable {K : Type}

/-- the two calls differ in the last step only -/
theorem nodeResults_disc (d : Struc K) (restype : String) (run : Int) (rescases : CasesArg)
    (sets : SetsArg) (kind : Option String) :
    getNodeResults d restype run rescases sets kind true =
      (getNodeResults d restype run rescases sets kind false >>= fun arr =>
        nodeIndices d sets kind true >>= fun is => updateConnectivity is >>= fun is' =>
          takeNodes is' arr) := by
  unfold getNodeResults
  cases nodeResTable d restype with
  | error e => rfl
  | ok t =>
    simp only [bind_ok]
    cases resRefs d run rescases with
    | error e => rfl
    | ok refs =>
      simp only [bind_ok]
      cases complexFlag (refs.map ResRef.icompl) with
      | error e => rfl
      | ok flag =>
        simp only [bind_ok]
        cases getNodeNumbers d sets kind false "internal" with
        | error e => rfl
        | ok nums =>
          simp only [bind_ok]
          cases npConcat ((t.1.filter fun r => decide (r.ires ∈ npUnique (refs.map ResRef.ires)) &&
              decide (r.iinod ∈ nums)).map fun r => npSlice t.2 r.start r.stop) with
          | error e => rfl
          | ok data =>
            simp only [bind_ok]
            cases asNums flag data with
            | error e => rfl
            | ok vals =>
              simp only [bind_ok]
              cases reshapeNodes (npUnique (refs.map ResRef.ires)).length vals with
              | error e => rfl
              | ok arr => rfl

/-- the new numbers of the nodes at the places of the elements -/
theorem updateConnectivity_ranks {m : Mesh K} (hv : Valid m) {es : List Nat} {l : List Element}
    (hl : Elements m es l) (hne : l ≠ []) {ns : List Nat}
    (hn : ns.map (· + 1) = l.flatMap Element.nodes) :
    updateConnectivity (ns.map fun n : Nat => (n : Int)) =
      .ok (ns.map fun n => (usedBefore l n : Int)) := by
  have hmem : ∀ n ∈ ns, n + 1 ∈ l.flatMap Element.nodes := by
    intro n hn'
    rw [← hn]
    exact List.mem_map_of_mem hn'
  have hlt : ∀ n ∈ ns, n < m.nodes.length := by
    intro n hn'
    have := mem_flat hv hl (hmem n hn')
    omega
  have hdist : Distinct (l.flatMap Element.nodes)
      (((List.range m.nodes.length).filter fun i => i + 1 ∈ l.flatMap Element.nodes).map (· + 1)) := by
    refine ⟨?_, fun n => ?_⟩
    · rw [List.pairwise_map]
      exact (List.pairwise_lt_range.sublist List.filter_sublist).imp fun h => by omega
    · rw [List.mem_map]
      constructor
      · rintro ⟨k, hk, rfl⟩
        exact of_decide_eq_true (List.mem_filter.mp hk).2
      · intro h
        have := mem_flat hv hl h
        refine ⟨n - 1, List.mem_filter.mpr ⟨List.mem_range.mpr (by omega), ?_⟩, by omega⟩
        rw [show n - 1 + 1 = n by omega]
        exact decide_eq_true h
  obtain ⟨con, hcon1, hcon2⟩ := updateConnectivity_ok (flat_ne hv hl hne) hdist
  have hnodup := (List.nodup_range (n := m.nodes.length)).sublist
    (List.filter_sublist (p := fun i => decide (i + 1 ∈ l.flatMap Element.nodes)))
  rw [map_pred hn] at hcon1
  rw [hcon1]
  congr 1
  have hcon3 : List.Forall₂ (fun (x : Int) (n : Nat) => ∃ k : Nat, x = k ∧
        ((List.filter (fun i => decide (i + 1 ∈ l.flatMap Element.nodes))
          (List.range m.nodes.length))[k]?).map (· + 1) = some n) con (ns.map (· + 1)) := by
    rw [hn]; exact hcon2
  rw [List.forall₂_map_right_iff] at hcon3
  have : ∀ {con' : List Int} {ns' : List Nat}, (∀ n ∈ ns', n ∈ ns) →
      List.Forall₂ (fun (x : Int) (n : Nat) => ∃ k : Nat, x = k ∧
        ((List.filter (fun i => decide (i + 1 ∈ l.flatMap Element.nodes))
          (List.range m.nodes.length))[k]?).map (· + 1) = some (n + 1)) con' ns' →
      con' = ns'.map fun n => (usedBefore l n : Int) := by
    intro con' ns' hsub h
    induction h with
    | nil => rfl
    | @cons x n con' ns' h _ ih =>
      rw [ih fun n hn => hsub n (List.mem_cons_of_mem _ hn), List.map_cons]
      obtain ⟨k, rfl, hk⟩ := h
      obtain ⟨n', hn', he⟩ := Option.map_eq_some_iff.mp hk
      obtain rfl : n' = n := Nat.succ.inj he
      have hin := hsub n' List.mem_cons_self
      have hg := used_get l (hmem n' hin) (hlt n' hin)
      obtain ⟨h1, h2⟩ := List.getElem?_eq_some_iff.mp hn'
      obtain ⟨h3, h4⟩ := List.getElem?_eq_some_iff.mp hg
      obtain rfl : k = usedBefore l n' := (List.Nodup.getElem_inj_iff hnodup).mp (h2.trans h4.symm)
      rfl
  exact this (fun _ h => h) hcon3

theorem npTake_cases {α : Type} (l : List α) (js : List Nat) :
    (∃ out, npTake l (js.map fun i : Nat => (i : Int)) = .ok out ∧
      List.Forall₂ (fun j x => l[j]? = some x) js out) ∨
    (npTake l (js.map fun i : Nat => (i : Int)) = .error .indexError ∧ ∃ j ∈ js, l.length ≤ j) := by
  unfold npTake
  induction js with
  | nil => exact .inl ⟨[], rfl, .nil⟩
  | cons j js ih =>
    rw [List.map_cons, List.mapM_cons]
    by_cases hj : j < l.length
    · have h1 : npAt l (j : Int) = .ok l[j] := npAt_nat (List.getElem?_eq_getElem hj)
      rw [h1, bind_ok]
      rcases ih with ⟨out, h2, h3⟩ | ⟨h2, k, h3, h4⟩
      · rw [h2]
        exact .inl ⟨_, rfl, .cons (List.getElem?_eq_getElem hj) h3⟩
      · rw [h2]
        exact .inr ⟨rfl, k, List.mem_cons_of_mem _ h3, h4⟩
    · have h1 : npAt l (j : Int) = .error .indexError := npAt_nat_error (by omega)
      rw [h1]
      exact .inr ⟨rfl, j, List.mem_cons_self, by omega⟩

/-- the rows of an array at the places `ns` of the elements `l`: each time the row whose number is
that of the nodes before the node that belong to the elements -/
def AtPlaces {β : Type} (l : List Element) (ns : List Nat) (rows out : List β) : Prop :=
  List.Forall₂ (fun n x => rows[usedBefore l n]? = some x) ns out

/-- some place asks for a row that is not there -/
def Beyond {β : Type} (l : List Element) (ns : List Nat) (rows : List β) : Prop :=
  ∃ n ∈ ns, rows.length ≤ usedBefore l n

/-- **C83** `get_noderesults` with `disconnected=True`, for any selection of elements and any
records: it raises what the call without raises, and otherwise takes from the array of that call,
for each node of each element, the row whose number is the number of nodes before it that belong to
the selected elements; IndexError if there is no such row. -/
theorem node_results_places {d : Struc K} {m : Mesh K} (hd : Holds d m) (hv : Valid m)
    {sets : SetsArg} (hs : NoSets sets ∨ HoldsSets d m) {kind : Option String} {es : List Nat}
    (hc : Chosen m sets kind es) {l : List Element} (hl : Elements m es l) (hne : l ≠ [])
    {ns : List Nat} (hn : ns.map (· + 1) = l.flatMap Element.nodes)
    (restype : String) (run : Int) (rescases : CasesArg) :
    (∀ e, getNodeResults d restype run rescases sets kind false = .error e →
      getNodeResults d restype run rescases sets kind true = .error e) ∧
    (∀ rows, getNodeResults d restype run rescases sets kind false = .ok (.single rows) →
      (∃ out, AtPlaces l ns rows out ∧
        getNodeResults d restype run rescases sets kind true = .ok (.single out)) ∨
      (Beyond l ns rows ∧
        getNodeResults d restype run rescases sets kind true = .error .indexError)) ∧
    (∀ arrs, getNodeResults d restype run rescases sets kind false = .ok (.cases arrs) →
      (∃ outs, List.Forall₂ (AtPlaces l ns) arrs outs ∧
        getNodeResults d restype run rescases sets kind true = .ok (.cases outs)) ∨
      ((∃ rows ∈ arrs, Beyond l ns rows) ∧
        getNodeResults d restype run rescases sets kind true = .error .indexError)) := by
  have hni := nodeIndices_ok hd hv hs hc hl (.inl hne) (.places hn)
  have hup := updateConnectivity_ranks hv hl hne hn
  have hcast : (ns.map fun n => (usedBefore l n : Int)) =
      (ns.map (usedBefore l)).map fun i : Nat => (i : Int) := by
    rw [List.map_map]; rfl
  rw [nodeResults_disc]
  refine ⟨?_, ?_, ?_⟩
  · intro e h
    rw [h]; rfl
  · intro rows h
    rw [h, bind_ok, hni, bind_ok, hup, bind_ok, hcast]
    unfold takeNodes
    simp only
    rcases npTake_cases rows (ns.map (usedBefore l)) with ⟨out, h1, h2⟩ | ⟨h1, j, h2, h3⟩
    · rw [h1]
      exact .inl ⟨out, List.forall₂_map_left_iff.mp h2, rfl⟩
    · rw [h1]
      obtain ⟨n, hn', rfl⟩ := List.mem_map.mp h2
      exact .inr ⟨⟨n, hn', h3⟩, rfl⟩
  · intro arrs h
    rw [h, bind_ok, hni, bind_ok, hup, bind_ok, hcast]
    unfold takeNodes
    simp only
    have : (∃ outs, (arrs.mapM fun r => npTake r ((ns.map (usedBefore l)).map fun i : Nat => (i : Int))) =
          .ok outs ∧ List.Forall₂ (AtPlaces l ns) arrs outs) ∨
        ((arrs.mapM fun r => npTake r ((ns.map (usedBefore l)).map fun i : Nat => (i : Int))) =
          .error .indexError ∧ ∃ rows ∈ arrs, Beyond l ns rows) := by
      clear h
      induction arrs with
      | nil => exact .inl ⟨[], rfl, .nil⟩
      | cons rows arrs ih =>
        rw [List.mapM_cons]
        rcases npTake_cases rows (ns.map (usedBefore l)) with ⟨out, h1, h2⟩ | ⟨h1, j, h2, h3⟩
        · rw [h1, bind_ok]
          rcases ih with ⟨outs, h4, h5⟩ | ⟨h4, r, h5, h6⟩
          · rw [h4]
            exact .inl ⟨_, rfl, .cons (List.forall₂_map_left_iff.mp h2) h5⟩
          · rw [h4]
            exact .inr ⟨rfl, r, List.mem_cons_of_mem _ h5, h6⟩
        · rw [h1]
          obtain ⟨n, hn', rfl⟩ := List.mem_map.mp h2
          exact .inr ⟨rfl, rows, List.mem_cons_self, n, hn', h3⟩
    rcases this with ⟨outs, h1, h2⟩ | ⟨h1, h2⟩
    · rw [h1]
      exact .inl ⟨outs, h2, rfl⟩
    · rw [h1]
      exact .inr ⟨h2, rfl⟩

/-! ## examples -/

namespace Demo

/-- results of only one of the nodes in the first result case -/
example := (node_results_places gapHolds resValid (.inl (.inl rfl)) resChosenAll
  (l := [⟨1, 15, [1, 3]⟩]) (.cons rfl .nil) (by simp) (ns := [0, 2]) rfl "displacement" 1 .all).2.2
  [[six 7 1, six 9 1], [six 9 2, six 9 3]] rfl
example : getNodeResults gapObject "displacement" 1 .all .none none true =
    .ok (.cases [[six 7 1, six 9 1], [six 9 2, six 9 3]]) := rfl

/-- **C83** Complex displacements of the two nodes of a beam: one row without `disconnected`,
IndexError with it. -/
theorem complex_places_raise :
    Holds cxObject resMesh ∧ HoldsNodeRecs cxObject "displacement" cxRecs ∧
    getNodeResults cxObject "displacement" 1 .all .none (some "beam") false =
      .ok (.single [[.cx 1 2, .cx 3 4, .cx 5 6, .cx 21 22, .cx 23 24, .cx 25 26]]) ∧
    getNodeResults cxObject "displacement" 1 .all .none (some "beam") true =
      .error .indexError := by
  refine ⟨cxHolds, cxHoldsRecs, rfl, ?_⟩
  rcases (node_results_places cxHolds resValid (.inl (.inl rfl)) resChosen
    (l := [⟨1, 15, [1, 3]⟩]) (.cons rfl .nil) (by simp) (ns := [0, 2]) rfl "displacement" 1
    .all).2.1 [[.cx 1 2, .cx 3 4, .cx 5 6, .cx 21 22, .cx 23 24, .cx 25 26]] rfl with ⟨out, h, _⟩ | ⟨_, h⟩
  · cases h with
    | cons _ h => cases h with
      | cons h _ =>
        rw [show usedBefore [⟨1, 15, [1, 3]⟩] 2 = 1 by decide] at h
        simp at h
  · exact h

end Demo
end Verif.Data
