import Verif.Export.Props
/-!
# Writing a mesh to a VTU file (property theorems)
-/

namespace Verif.Export
open Verif Verif.Vtu Verif.Data

variable {K : Type}

/-! ### blocks -/

theorem vtkOrder_map {α β : Type} (f : α → β) (t : Nat) (l : List α) :
    vtkOrder t (l.map f) = (vtkOrder t l).map f := by
  by_cases h : t = 23
  · subst h
    rcases l with _ | ⟨a, _ | ⟨b, _ | ⟨c, _ | ⟨d, l⟩⟩⟩⟩ <;> rfl
  by_cases h' : t = 28
  · subst h'
    rcases l with _ | ⟨a, _ | ⟨b, _ | ⟨c, _ | ⟨d, _ | ⟨e, _ | ⟨f, _ | ⟨g, _ | ⟨i, _ | ⟨j, l⟩⟩⟩⟩⟩⟩⟩⟩⟩ <;> rfl
  have : ∀ {γ : Type} (l : List γ), vtkOrder t l = l := by
    intro γ l
    unfold vtkOrder
    split
    · exact absurd rfl h
    · exact absurd rfl h'
    · rfl
  rw [this, this]

theorem vtkOrder_forall {α β : Type} {R : α → β → Prop} {t : Nat} {a : List α} {b : List β}
    (h : List.Forall₂ R a b) : List.Forall₂ R (vtkOrder t a) (vtkOrder t b) := by
  have hz : a = (a.zip b).map Prod.fst := (List.map_fst_zip h.length_eq.le).symm
  have hz' : b = (a.zip b).map Prod.snd := (List.map_snd_zip h.length_eq.ge).symm
  have hR : ∀ p ∈ a.zip b, R p.1 p.2 := fun p hp => (List.forall₂_iff_zip.mp h).2 hp
  have hsub : ∀ (l : List (α × β)) p, p ∈ vtkOrder t l → p ∈ l := by
    intro l p hp
    unfold vtkOrder at hp
    split at hp
    · simp only [List.mem_cons, List.not_mem_nil, or_false] at hp ⊢; tauto
    · simp only [List.mem_cons, List.not_mem_nil, or_false] at hp ⊢; tauto
    · exact hp
  have h1 : vtkOrder t a = (vtkOrder t (a.zip b)).map Prod.fst := by
    rw [← vtkOrder_map, ← hz]
  have h2 : vtkOrder t b = (vtkOrder t (a.zip b)).map Prod.snd := by
    rw [← vtkOrder_map, ← hz']
  rw [h1, h2, List.forall₂_map_left_iff, List.forall₂_map_right_iff, List.forall₂_same]
  intro p hp
  exact hR p (hsub _ p hp)

theorem vtkOrder_length {α : Type} (t : Nat) (l : List α) : (vtkOrder t l).length = l.length := by
  unfold vtkOrder
  split <;> rfl

/-- a list that lines up with the places of the elements falls into blocks -/
theorem blocks_of {α : Type} {R : α → Nat → Prop} {els : List Element} {l : List α}
    (h : List.Forall₂ R l (els.flatMap Element.nodes)) :
    ∃ blocks : List (List α), l = blocks.flatten ∧
      List.Forall₂ (fun (e : Element) b => List.Forall₂ R b e.nodes) els blocks := by
  induction els generalizing l with
  | nil =>
    simp only [List.flatMap_nil, List.forall₂_nil_right_iff] at h
    exact ⟨[], by simp [h], .nil⟩
  | cons e els ih =>
    rw [List.flatMap_cons] at h
    obtain ⟨l1, l2, rfl, h1, h2⟩ : ∃ l1 l2, l = l1 ++ l2 ∧ List.Forall₂ R l1 e.nodes ∧
        List.Forall₂ R l2 (els.flatMap Element.nodes) :=
      ⟨l.take e.nodes.length, l.drop e.nodes.length, (List.take_append_drop _ _).symm, by
        simpa using List.forall₂_take e.nodes.length h, by
        simpa using List.forall₂_drop e.nodes.length h⟩
    obtain ⟨bs, rfl, h3⟩ := ih h2
    exact ⟨l1 :: bs, by simp, .cons h1 h3⟩

theorem ends_of {α : Type} {els : List Element} {blocks : List (List α)} {s : Nat} {os : List Int}
    (h : Ends s els os) (hb : List.Forall₂ (fun (e : Element) b => b.length = e.nodes.length) els blocks) :
    os.map Int.toNat = ends s blocks := by
  induction h generalizing blocks with
  | nil => cases hb; rfl
  | cons h ih =>
    cases hb with
    | cons h1 h2 =>
      simp only [List.map_cons, ends, h1]
      rw [ih h2]
      rfl

theorem ends_congr {α β : Type} {a : List (List α)} {b : List (List β)}
    (h : List.Forall₂ (fun x y => x.length = y.length) a b) (s : Nat) : ends s a = ends s b := by
  induction h generalizing s with
  | nil => rfl
  | cons h1 h2 ih => simp only [ends, h1, ih]

theorem ends_le {α : Type} (bs : List (List α)) (s : Nat) :
    ∀ o ∈ ends s bs, o ≤ s + bs.flatten.length := by
  induction bs generalizing s with
  | nil => simp [ends]
  | cons b bs ih =>
    intro o ho
    simp only [ends, List.mem_cons] at ho
    simp only [List.flatten_cons, List.length_append]
    rcases ho with rfl | ho
    · omega
    · have := ih _ o ho
      omega

theorem zip_lengths {α : Type} {ts : List Nat} {bs : List (List α)} (h : ts.length = bs.length) :
    List.zipWith (fun _ b => b.length) ts bs = bs.map List.length := by
  induction bs generalizing ts with
  | nil => simp
  | cons b bs ih =>
    rcases ts with _ | ⟨t, ts⟩
    · simp at h
    · simp [ih (by simpa using h)]

theorem cells_of {R : Nat → Nat → Prop} {els : List Element} {bl : List (List Nat)}
    (h : List.Forall₂ (fun (el : Element) b => List.Forall₂ R b el.nodes) els bl) :
    List.Forall₂ (fun (el : Element) b => List.Forall₂ R b (vtkOrder el.typ.toNat el.nodes)) els
      (List.zipWith vtkOrder (els.map fun el => el.typ.toNat) bl) := by
  induction h with
  | nil => exact .nil
  | cons h1 h2 ih => exact .cons (vtkOrder_forall h1) ih

/-- the element types that have a number of nodes have a VTK cell type -/
theorem vtk_of_nodes {typ : Int} {n : Nat} (h : nodesOf typ = some n) :
    ∃ t v : Nat, typ = t ∧ (t, v) ∈ vtkCellTypes ∧ (t = 23 → n = 3) ∧ (t = 28 → n = 8) ∧
      (t = 26 → n = 6) := by
  unfold nodesOf at h
  split at h <;> cases h
  · exact ⟨15, 3, rfl, by decide, by decide, by decide, by decide⟩
  · exact ⟨23, 21, rfl, by decide, by decide, by decide, by decide⟩
  · exact ⟨24, 9, rfl, by decide, by decide, by decide, by decide⟩
  · exact ⟨25, 5, rfl, by decide, by decide, by decide, by decide⟩
  · exact ⟨26, 22, rfl, by decide, by decide, by decide, by decide⟩
  · exact ⟨28, 23, rfl, by decide, by decide, by decide, by decide⟩

theorem small_type {t v : Nat} (h : (t, v) ∈ vtkCellTypes) : v < 256 := by
  have : ∀ p ∈ vtkCellTypes, p.2 < 256 := by decide
  exact this _ h

theorem writable_int {t : IntType} (ht : t.Ok) {vals : List Nat} (h : vals.length < 2 ^ 56) :
    Writable (IArr.toArr ⟨t.dtype, t.itemsize, vals⟩) := by
  refine ⟨by simp [IArr.toArr], ht.vtk, ?_⟩
  simp only [Arr.nbytes, IArr.toArr, List.length_map, List.prod_nil, Nat.mul_one]
  calc vals.length * t.itemsize ≤ vals.length * 8 := Nat.mul_le_mul_left _ ht.size
    _ < 2 ^ 64 := by omega

/-- **C71** A selection of elements, with the nodes that go with it, written to a VTU file: all
calls return, the file is the XML text of a document with one piece, and the piece shows the
elements on the nodes of the selection.  (`data`: point data added after it, see below.) -/
theorem export_mesh [Semiring K] {d : Struc K} {m : Mesh K} (hd : Holds d m) (hv : Valid m)
    {sets : SetsArg} (hs : NoSets sets ∨ HoldsSets d m) {kind : Option String} {es : List Nat}
    (hc : Chosen m sets kind es) {els : List Element} (hl : Elements m es els) (hne : els ≠ [])
    {disc : Bool} {ns : List Nat} (hn : ChosenNodes m sets kind els disc ns)
    (hnodes : ∀ el ∈ els, nodesOf el.typ = some el.nodes.length) {e : Enc K} (he : e.Ok)
    {tc tf tt : IntType} (htc : tc.Ok) (htf : tf.Ok) (hbig : ns.length < 2 ^ 56)
    (hbig' : (els.flatMap Element.nodes).length < 2 ^ 56) (hfit : ns.length ≤ 256 ^ tc.itemsize)
    (hfit' : (els.flatMap Element.nodes).length < 256 ^ tf.itemsize) (fuel : Nat) (index : Int) :
    ∃ elems coords p, getElements d sets kind disc = .ok elems ∧
      getNodes d fuel sets kind disc .none index = .ok coords ∧ Shows e m els ns p ∧
      p.offsets.vals = ends 0 (els.map Element.nodes) ∧
      p.types.vals = els.map (fun el => el.typ.toNat) ∧
      ∀ data das, List.Forall₂ (Adds p) data das →
        ∃ out, Written (exportCalls (pieceCall e tc tf tt coords elems) data) out ∧
          Holds1 out { p with sections := [⟨.point, das⟩] } := by
  obtain ⟨con, offs, h1, h2, h3⟩ := getElements_ok hd hv hs hc hl (.inl hne) hn
  obtain ⟨coords, h4, h5⟩ := getNodes_ok hd hv hs hc hl (.inl hne) hn fuel index
  -- the connectivity in blocks
  obtain ⟨blocks, hcon, hblocks⟩ := blocks_of h3
  have hblen : List.Forall₂ (fun (el : Element) (b : List Int) => b.length = el.nodes.length) els
      blocks := hblocks.imp fun _ _ h => h.length_eq
  have hends : offs.map Int.toNat = ends 0 (blocks.map (List.map Int.toNat)) := by
    rw [ends_of h2 hblen]
    apply ends_congr
    rw [List.forall₂_map_right_iff, List.forall₂_same]
    simp
  have hends' : offs.map Int.toNat = ends 0 (els.map Element.nodes) := by
    refine ends_of h2 ?_
    rw [List.forall₂_map_right_iff, List.forall₂_same]
    simp
  set typs : List Nat := els.map (fun el => el.typ.toNat) with htyps
  have htv : (intArr tt (els.map Element.typ)).vals = typs := by simp [intArr, htyps, Function.comp_def]
  set bs := blocks.map (List.map fun c : Int => leBytes tc.itemsize c.toNat) with hbs
  have hrows : (intArr tc con).toArr.rows = bs.flatten := by
    simp [intArr, IArr.toArr, hcon, hbs, List.map_flatten, Function.comp_def]
  have hlenb : typs.length = bs.length := by
    simp [htyps, hbs, hblocks.length_eq]
  have hok : ∀ p ∈ typs.zip bs, (p.1 = 23 → p.2.length = 3) ∧ (p.1 = 28 → p.2.length = 8) := by
    intro p hp
    rw [htyps, hbs, List.zip_map, List.mem_map] at hp
    obtain ⟨⟨el, b⟩, hq, rfl⟩ := hp
    have hb := (List.forall₂_iff_zip.mp hblen).2 hq
    obtain ⟨t, v, ht, -, h23, h28, -⟩ := vtk_of_nodes (hnodes el (List.of_mem_zip hq).1)
    simp only [Prod.map_fst, Prod.map_snd, List.length_map, ht, Int.toNat_natCast, hb]
    exact ⟨h23, h28⟩
  have hre := reorder_connectivity bs typs [] hlenb hok
  rw [List.append_nil, List.append_nil, show ends 0 bs = (intArr tf offs).vals by
    simp only [intArr, hends, hbs]
    apply ends_congr
    rw [List.forall₂_map_left_iff, List.forall₂_map_right_iff, List.forall₂_same]
    simp] at hre
  -- the types
  have hvt : ∃ vt, List.Forall₂ (fun a b => (a, b) ∈ vtkCellTypes) typs vt := by
    rw [htyps]
    clear * - hnodes
    induction els with
    | nil => exact ⟨[], .nil⟩
    | cons el els ih =>
      obtain ⟨vt, hvt⟩ := ih fun x hx => hnodes x (List.mem_cons_of_mem _ hx)
      obtain ⟨t, v, ht, hm, -⟩ := vtk_of_nodes (hnodes el List.mem_cons_self)
      exact ⟨v :: vt, .cons (by simpa [ht] using hm) hvt⟩
  obtain ⟨vt, hvt⟩ := hvt
  have hel : els.length ≤ (els.flatMap Element.nodes).length := by
    clear * - hnodes
    induction els with
    | nil => simp
    | cons el els ih =>
      have := ih fun x hx => hnodes x (List.mem_cons_of_mem _ hx)
      have h0 : el.nodes.length ≠ 0 := by
        have := hnodes el List.mem_cons_self
        intro h
        rw [h] at this
        unfold nodesOf at this
        split at this <;> cases this
      simp only [List.flatMap_cons, List.length_append, List.length_cons]
      omega
  have hconlen : con.length = (els.flatMap Element.nodes).length := h3.length_eq
  have hofflen : offs.length = els.length := by
    have := congrArg List.length hends'
    simp only [List.length_map] at this
    rw [this]
    have : ∀ (l : List (List Nat)) s, (ends s l).length = l.length := by
      intro l
      induction l with
      | nil => intro s; rfl
      | cons b l ih => intro s; simp [ends, ih]
    rw [this, List.length_map]
  refine ⟨_, coords, ⟨pointsArr e coords,
    { (intArr tc con).toArr with rows := (List.zipWith vtkOrder typs bs).flatten }, intArr tf offs,
    intArr tt (els.map Element.typ), ⟨"int64", 8, vt⟩, []⟩, h1, h4, ?_, ?_, ?_, ?_⟩
  · refine ⟨?_, ?_, ?_⟩
    · simp only [pointsArr, List.forall₂_map_right_iff]
      refine h5.imp ?_
      intro n p hp
      rw [Option.map_eq_some_iff] at hp
      obtain ⟨node, h6, rfl⟩ := hp
      exact ⟨node, h6, rfl⟩
    · rw [htyps, List.forall₂_map_left_iff] at hvt
      simp only [numbers, IArr.toArr, List.map_map, List.forall₂_map_right_iff, Function.comp_def]
      have : List.Forall₂ (fun (el : Element) v => nodesOf el.typ = some el.nodes.length ∧
          (el.typ.toNat, v) ∈ vtkCellTypes) els vt := by
        rw [List.forall₂_iff_zip] at hvt ⊢
        exact ⟨hvt.1, fun {a b} hp => ⟨hnodes a (List.of_mem_zip hp).1, hvt.2 hp⟩⟩
      refine this.imp ?_
      rintro el v ⟨h6, h7⟩
      obtain ⟨t, _, ht, -⟩ := vtk_of_nodes h6
      refine ⟨t, ht, ?_⟩
      rw [leVal_leBytes _ _ ((small_type h7).trans_le (by norm_num))]
      simpa [ht] using h7
    · refine ⟨List.zipWith vtkOrder typs (blocks.map (List.map Int.toNat)), ?_, ?_, ?_⟩
      · have hz : List.zipWith vtkOrder typs bs =
            (List.zipWith vtkOrder typs (blocks.map (List.map Int.toNat))).map
              (List.map (leBytes tc.itemsize)) := by
          rw [hbs, List.map_zipWith, List.zipWith_map_right, List.zipWith_map_right]
          congr 1
          funext t b
          rw [← vtkOrder_map, List.map_map]
          rfl
        have hval : ∀ k ∈ (List.zipWith vtkOrder typs (blocks.map (List.map Int.toNat))).flatten,
            leVal (leBytes tc.itemsize k) = k := by
          intro k hk
          rw [List.mem_flatten] at hk
          obtain ⟨b, hb, hkb⟩ := hk
          rw [List.mem_iff_getElem] at hb
          obtain ⟨i, hi, rfl⟩ := hb
          rw [List.getElem_zipWith] at hkb
          have hmem : ∀ (t : Nat) (l : List Nat), k ∈ vtkOrder t l → k ∈ l := by
            intro t l hp
            unfold vtkOrder at hp
            split at hp
            · simp only [List.mem_cons, List.not_mem_nil, or_false] at hp ⊢; tauto
            · simp only [List.mem_cons, List.not_mem_nil, or_false] at hp ⊢; tauto
            · exact hp
          have hk1 := hmem _ _ hkb
          rw [List.getElem_map, List.mem_map] at hk1
          obtain ⟨c, hc1, rfl⟩ := hk1
          have hcc : c ∈ con := by
            rw [hcon]
            exact List.mem_flatten.mpr ⟨_, List.getElem_mem _, hc1⟩
          obtain ⟨j, hj, rfl⟩ := List.mem_iff_getElem.mp hcc
          obtain ⟨k, hk2, hk3⟩ := (List.forall₂_iff_get.mp h3).2 j hj (by rw [← h3.length_eq]; exact hj)
          simp only [List.get_eq_getElem] at hk2
          rw [hk2, Int.toNat_natCast]
          apply leVal_leBytes
          rw [Option.map_eq_some_iff] at hk3
          obtain ⟨x, hx, -⟩ := hk3
          obtain ⟨hlt, -⟩ := List.getElem?_eq_some_iff.mp hx
          omega
        simp only [numbers]
        rw [hz, ← List.map_flatten, List.map_map]
        conv_rhs => rw [← List.map_id (List.zipWith vtkOrder typs (blocks.map (List.map Int.toNat))).flatten]
        exact List.map_congr_left hval
      · have : numbers (intArr tf offs).toArr = offs.map Int.toNat := by
          simp only [numbers, IArr.toArr, intArr, List.map_map]
          rw [← List.map_id (List.map Int.toNat offs), List.map_map]
          apply List.map_congr_left
          intro o ho
          simp only [Function.comp_apply, id]
          apply leVal_leBytes
          have := ends_le (els.map Element.nodes) 0 o.toNat (by
            rw [← hends']
            exact List.mem_map_of_mem ho)
          rw [← List.flatMap_def] at this
          omega
        rw [this, hends]
        apply ends_congr
        rw [List.forall₂_iff_get]
        refine ⟨?_, ?_⟩
        · simp [hlenb, hbs]
        · intro i h6 h7
          simp [vtkOrder_length]
      · apply cells_of
        rw [List.forall₂_map_right_iff]
        refine hblocks.imp ?_
        intro el b hb
        rw [List.forall₂_map_left_iff]
        refine hb.imp ?_
        rintro c n ⟨k, rfl, hk⟩
        simpa using hk
  · exact hends'
  · exact htv
  · intro data das hdata
    have hz : (List.zipWith vtkOrder typs bs).flatten.length = con.length := by
      have : (List.zipWith vtkOrder typs bs).map List.length = blocks.map List.length := by
        rw [List.map_zipWith]
        simp only [vtkOrder_length]
        rw [hbs, List.zipWith_map_right]
        simp only [List.length_map]
        exact zip_lengths (by rw [hlenb, hbs, List.length_map])
      rw [List.length_flatten, this, hcon, List.length_flatten]
    refine written_piece ?_ ?_ ?_ (writable_int htf ?_) ?_ ?_ ?_ hdata
    · refine ⟨by simp [pointsArr], he.vtk, ?_⟩
      have := h5.length_eq
      simp only [Arr.nbytes, pointsArr, List.length_map, ← this, List.prod_cons, List.prod_nil, Nat.mul_one]
      calc ns.length * 3 * e.itemsize ≤ ns.length * 3 * 8 := Nat.mul_le_mul_left _ he.size
        _ < 2 ^ 64 := by omega
    · rw [hrows, htv]; exact hre
    · refine ⟨by simp [intArr, IArr.toArr], htc.vtk, ?_⟩
      simp only [Arr.nbytes, intArr, IArr.toArr, hz, List.prod_nil, Nat.mul_one]
      calc con.length * tc.itemsize ≤ con.length * 8 := Nat.mul_le_mul_left _ htc.size
        _ < 2 ^ 64 := by omega
    · simp only [List.length_map]
      omega
    · rw [htv, htyps]
      simpa using hne
    · rw [htv]; exact hvt
    · refine writable_int (t := ⟨"int64", 8⟩) ⟨⟨"Int64", by decide⟩, le_refl _⟩ ?_
      rw [← hvt.length_eq, htyps, List.length_map]
      omega

end Verif.Export
