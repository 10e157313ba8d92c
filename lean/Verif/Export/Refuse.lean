import Verif.Export.Results
/-!
# Elements that cannot be written (property theorems)
-/

namespace Verif.Export
open Verif Verif.Vtu Verif.Data

variable {K : Type}

/-- the state after `k` calls of `close()`, exceptions caught -/
def afterCloses : Nat → St → St
  | 0, s => s
  | k + 1, s => afterCloses k (close s).1

/-- every further `close()` raises, nothing is written and the file stays open -/
def NeverCloses (s : St) : Prop :=
  ∀ k, (close (afterCloses k s)).2 ≠ none ∧ (afterCloses k s).out = s.out ∧
    (afterCloses k s).fileOpen = true

theorem neverCloses {s : St} (h1 : s.pieceOpen = true) (h2 : s.pdOpen = false)
    (h3 : s.cdOpen = false) (h4 : "Piece".toList ∉ s.elements) (h5 : s.fileOpen = true) :
    NeverCloses s := by
  have step : ∀ s : St, s.pieceOpen = true → s.pdOpen = false → s.cdOpen = false →
      "Piece".toList ∉ s.elements → (close s).2 ≠ none ∧ (close s).1 = { s with elements := s.elements.tail } := by
    intro s h1 h2 h3 h4
    have : closePiece s = ({ s with elements := s.elements.tail },
        some (if s.elements = [] then .indexError else .vtkError)) := by
      unfold closePiece
      rw [if_pos h1]
      refine seq_of_err ?_
      unfold closeElement
      rcases he : s.elements with _ | ⟨t, ts⟩
      · simp only [List.tail_nil, if_true]
        congr 1
        cases s
        simp only at he
        rw [he]
      · rw [he] at h4
        simp only [List.mem_cons, not_or] at h4
        simp only [if_neg h4.1, List.tail_cons, reduceCtorEq, if_false]
    unfold close
    rw [seq_of_ok (closeData_noop h2 h3), seq_of_err this]
    simp
  intro k
  suffices h : ∀ k s, s.pieceOpen = true → s.pdOpen = false → s.cdOpen = false →
      "Piece".toList ∉ s.elements → (close (afterCloses k s)).2 ≠ none ∧
        (afterCloses k s).out = s.out ∧ (afterCloses k s).fileOpen = s.fileOpen by
    rw [← h5]
    exact h k s h1 h2 h3 h4
  intro k
  induction k with
  | zero => intro s h1 h2 h3 h4; exact ⟨(step s h1 h2 h3 h4).1, rfl, rfl⟩
  | succ k ih =>
    intro s h1 h2 h3 h4
    simp only [afterCloses]
    rw [(step s h1 h2 h3 h4).2]
    exact ih { s with elements := s.elements.tail } h1 h2 h3 fun h => h4 (List.mem_of_mem_tail h)

/-- **C71** If one of the element types has no VTK cell type, `new_piece` raises KeyError, after
which the writer can never be closed. -/
theorem unsupported_blocks {s : St} {doc : Doc} (h : Rel s doc) (p c : Arr) (o t : IArr)
    {rows : List (List Byte)} (hr : reorderData conTable c.rows 0 o.vals t.vals = (rows, none))
    (ht : ∃ x ∈ t.vals, ∀ v, (x, v) ∉ vtkCellTypes) :
    ∃ s', newPiece p c o t s = (s', some .keyError) ∧ NeverCloses s' := by
  obtain ⟨s1, s2, h1, h2, xs, hxs, hout, hfo, hpo, hpd, hcd, hel⟩ := flatten_rel h
  have hm : typeidmapper t = .error .keyError := by
    unfold typeidmapper
    obtain ⟨x, hx, hv⟩ := ht
    have key : ∀ l : List Nat, x ∈ l → l.mapM lookupTypeId = .error .keyError := by
      intro l
      induction l with
      | nil => simp
      | cons a l ih =>
        intro hm
        rw [List.mapM_cons]
        rcases ha : lookupTypeId a with e | b
        · unfold lookupTypeId at ha
          split at ha
          · cases ha
          · cases ha; rfl
        · rcases List.mem_cons.mp hm with rfl | hm
          · exfalso
            unfold lookupTypeId at ha
            split at ha
            · rename_i v hv'
              exact hv v ((vtkTypeId_iff _ _).mp hv')
            · cases ha
          · rw [ih hm]; rfl
    rcases hl : t.vals with _ | ⟨a, as⟩
    · rw [hl] at hx; simp at hx
    · rw [hl] at hx
      simp only [key _ hx]
      rfl
  refine ⟨{ s2 with pieceOpen := true, cur := some (o.vals, t.vals) }, ?_, ?_⟩
  · unfold newPiece
    rw [seq_of_ok h1, seq_of_ok h2, seq_of_ok rfl]
    simp only [hr, hm]
  · refine neverCloses rfl hpd hcd ?_ hfo
    simp only [hel]
    decide

/-- **C71** A selection of no elements cannot be written. -/
theorem empty_refused {s : St} {doc : Doc} (h : Rel s doc) (p c : Arr) (o t : IArr)
    (ht : t.vals = []) : ∃ s', newPiece p c o t s = (s', some .valueError) ∧ NeverCloses s' := by
  obtain ⟨s1, s2, h1, h2, xs, hxs, hout, hfo, hpo, hpd, hcd, hel⟩ := flatten_rel h
  refine ⟨{ s2 with pieceOpen := true, cur := some (o.vals, t.vals) }, ?_, ?_⟩
  · unfold newPiece
    rw [seq_of_ok h1, seq_of_ok h2, seq_of_ok rfl]
    have : reorderData conTable c.rows 0 o.vals t.vals = (c.rows, none) := by
      rw [ht]
      cases o.vals <;> rfl
    simp only [this]
    unfold typeidmapper
    rw [ht]
  · refine neverCloses rfl hpd hcd ?_ hfo
    simp only [hel]
    decide

/-- **C71** A selection with an element of a type that has no VTK cell type: the getters return its
arrays, `new_piece` raises KeyError, and the writer can never be closed. -/
theorem export_unsupported [Semiring K] {d : Struc K} {m : Mesh K} (hd : Holds d m) (hv : Valid m)
    {sets : SetsArg} (hs : NoSets sets ∨ HoldsSets d m) {kind : Option String} {es : List Nat}
    (hc : Chosen m sets kind es) {els : List Element} (hl : Elements m es els) (hne : els ≠ [])
    {disc : Bool} {ns : List Nat} (hn : ChosenNodes m sets kind els disc ns)
    (hlen : ∀ el ∈ els, (el.typ = 23 → el.nodes.length = 3) ∧ (el.typ = 28 → el.nodes.length = 8))
    (hun : ∃ el ∈ els, nodesOf el.typ = none) (e : Enc K) (tc tf tt : IntType) (fuel : Nat)
    (index : Int) :
    ∃ elems coords s, getElements d sets kind disc = .ok elems ∧
      getNodes d fuel sets kind disc .none index = .ok coords ∧
      (pieceCall e tc tf tt coords elems).run init.1 = (s, some .keyError) ∧ NeverCloses s := by
  obtain ⟨con, offs, h1, h2, h3⟩ := getElements_ok hd hv hs hc hl (.inl hne) hn
  obtain ⟨coords, h4, h5⟩ := getNodes_ok hd hv hs hc hl (.inl hne) hn fuel index
  obtain ⟨blocks, hcon, hblocks⟩ := blocks_of h3
  have hblen : List.Forall₂ (fun (el : Element) (b : List Int) => b.length = el.nodes.length) els
      blocks := hblocks.imp fun _ _ h => h.length_eq
  set typs : List Nat := els.map (fun el => el.typ.toNat) with htyps
  have htv : (intArr tt (els.map Element.typ)).vals = typs := by simp [intArr, htyps, Function.comp_def]
  set bs := blocks.map (List.map fun c : Int => leBytes tc.itemsize c.toNat) with hbs
  have hrows : (intArr tc con).toArr.rows = bs.flatten := by
    simp [intArr, IArr.toArr, hcon, hbs, List.map_flatten, Function.comp_def]
  have hre := reorder_connectivity bs typs [] (by simp [htyps, hbs, hblocks.length_eq]) (by
    intro p hp
    rw [htyps, hbs, List.zip_map, List.mem_map] at hp
    obtain ⟨⟨el, b⟩, hq, rfl⟩ := hp
    have hb := (List.forall₂_iff_zip.mp hblen).2 hq
    have := hlen el (List.of_mem_zip hq).1
    simp only [Prod.map_fst, Prod.map_snd, List.length_map, hb]
    exact ⟨fun h => this.1 (by omega), fun h => this.2 (by omega)⟩)
  rw [List.append_nil, List.append_nil, show ends 0 bs = (intArr tf offs).vals by
    simp only [intArr]
    rw [ends_of h2 hblen]
    apply ends_congr
    rw [hbs, List.forall₂_map_left_iff, List.forall₂_same]
    simp] at hre
  obtain ⟨s', h6, h7⟩ := unsupported_blocks rel_init.2 (pointsArr e coords) (intArr tc con).toArr
    (intArr tf offs) (intArr tt (els.map Element.typ)) (by rw [hrows, htv]; exact hre) (by
      obtain ⟨el, hel, hno⟩ := hun
      refine ⟨el.typ.toNat, by rw [htv, htyps]; exact List.mem_map_of_mem hel, ?_⟩
      intro v hmem
      have : ∀ p ∈ vtkCellTypes, p.1 ≠ 0 ∧ nodesOf (p.1 : Int) ≠ none := by decide
      have h8 := this _ hmem
      simp only at h8
      rw [Int.toNat_of_nonneg (by omega)] at h8
      exact h8.2 hno)
  exact ⟨_, coords, s', h1, h4, h6, h7⟩

end Verif.Export
