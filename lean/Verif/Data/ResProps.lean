import Verif.Data.ResSpec
import Verif.Data.StrucProps
/-!
# Node results (C32)
-/

namespace Verif.Data
open Verif
open Verif.Seq (Str)

variable {K : Type}

/-! ## lemmas -/

theorem asComplex_ok {vs : List (Num K)} (h : ∀ v ∈ vs, ∃ x y, v = .cx x y) :
    asComplex (vs.flatMap raw) = .ok vs := by
  induction vs with
  | nil => rfl
  | cons v vs ih =>
    obtain ⟨x, y, rfl⟩ := h v List.mem_cons_self
    rw [List.flatMap_cons]
    show asComplex (x :: y :: vs.flatMap raw) = _
    rw [asComplex, ih fun v hv => h v (List.mem_cons_of_mem _ hv)]; rfl

theorem asNums_ok {flag : Int} {vs : List (Num K)} (h : ∀ v ∈ vs, OfKind flag v) :
    asNums flag (vs.flatMap raw) = .ok vs := by
  unfold asNums
  by_cases hf : flag = 0
  · rw [if_neg (not_not.mpr hf)]
    congr 1
    induction vs with
    | nil => rfl
    | cons v vs ih =>
      rcases h v List.mem_cons_self with ⟨_, x, rfl⟩ | ⟨hn, _⟩
      · rw [List.flatMap_cons, List.map_append, ih fun v hv => h v (List.mem_cons_of_mem _ hv)]; rfl
      · exact absurd hf hn
  · rw [if_pos hf]
    refine asComplex_ok fun v hv => ?_
    rcases h v hv with ⟨h0, _⟩ | ⟨_, h⟩
    · exact absurd h0 hf
    · exact h

theorem pieces_flatten {β : Type} {n : Nat} {ls : List (List β)} (h : ∀ l ∈ ls, l.length = n) :
    pieces n ls.length ls.flatten = ls := by
  induction ls with
  | nil => rfl
  | cons l ls ih =>
    have hl := h l List.mem_cons_self
    rw [List.length_cons, List.flatten_cons, pieces, ← hl, List.take_left, List.drop_left, hl,
      ih fun a ha => h a (List.mem_cons_of_mem _ ha)]

theorem length_flatten_const {β : Type} {n : Nat} {ls : List (List β)}
    (h : ∀ l ∈ ls, l.length = n) : ls.flatten.length = ls.length * n := by
  induction ls with
  | nil => simp
  | cons l ls ih =>
    rw [List.flatten_cons, List.length_append, h l List.mem_cons_self,
      ih fun a ha => h a (List.mem_cons_of_mem _ ha), List.length_cons]
    ring

/-- one array of rows for each result case -/
def shaped {β : Type} : List (List (List β)) → NodeArray β
  | [rows] => .single rows
  | arrs => .cases arrs

theorem reshape_ok {β : Type} {arrs : List (List (List β))} {n : Nat} (hn : arrs ≠ [])
    (h : ∀ a ∈ arrs, a.length = n ∧ ∀ v ∈ a, v.length = 6) :
    reshapeNodes arrs.length (arrs.map List.flatten).flatten = .ok (shaped arrs) := by
  have hin : ∀ l ∈ arrs.map List.flatten, l.length = n * 6 := by
    intro l hl
    obtain ⟨a, ha, rfl⟩ := List.mem_map.mp hl
    rw [length_flatten_const (h a ha).2, (h a ha).1]
  have hlen := length_flatten_const hin
  rw [List.length_map] at hlen
  unfold reshapeNodes
  rw [hlen]
  match arrs, hn with
  | [rows], _ =>
    rw [if_neg (by simp)]
    have hr := h rows List.mem_cons_self
    simp only [List.length_singleton, Nat.one_mul, List.map_cons, List.map_nil, List.flatten_cons,
      List.flatten_nil, List.append_nil]
    rw [if_pos (by simp), Nat.mul_div_cancel _ (by decide), ← hr.1, pieces_flatten hr.2]; rfl
  | a :: b :: l, _ =>
    rw [if_pos (by simp)]
    have hk : 0 < (a :: b :: l).length * 6 := by simp
    have e : (a :: b :: l).length * (n * 6) = n * ((a :: b :: l).length * 6) := by ring
    rw [e, if_pos (Nat.mul_mod_left _ _), Nat.mul_div_cancel _ hk]
    have hp := pieces_flatten hin
    rw [List.length_map] at hp
    show Except.ok (NodeArray.cases ((pieces (n * 6) (a :: b :: l).length _).map (pieces 6 n))) = _
    rw [hp, List.map_map]
    have : (a :: b :: l).map (pieces 6 n ∘ List.flatten) = a :: b :: l := by
      conv_rhs => rw [← List.map_id (a :: b :: l)]
      apply List.map_congr_left
      intro x hx
      have := h x hx
      simp only [Function.comp, id]
      rw [← this.1, pieces_flatten this.2]
    rw [this]; rfl

/-- the values at increasing positions, by filtering -/
theorem filter_zipIdx {β : Type} {l : List β} {ns : List Nat} (hs : ns.Pairwise (· < ·))
    (hlt : ∀ n ∈ ns, n < l.length) :
    List.Forall₂ (fun n x => l[n]? = some x) ns
      ((l.zipIdx.filter fun p => decide (p.2 ∈ ns)).map Prod.fst) := by
  have h2 : (l.zipIdx.filter fun p => decide (p.2 ∈ ns)).map Prod.snd = ns := by
    have h3 : l.zipIdx.map Prod.snd = List.range l.length := by
      rw [List.zipIdx_map_snd, List.range_eq_range']
    have h4 : (l.zipIdx.filter fun p => decide (p.2 ∈ ns)).map Prod.snd =
        (l.zipIdx.map Prod.snd).filter fun n => decide (n ∈ ns) := by
      rw [List.filter_map]; rfl
    rw [h4, h3]
    refine sorted_ext (List.pairwise_lt_range.filter _) hs fun x => ?_
    rw [List.mem_filter, decide_eq_true_eq, List.mem_range]
    exact ⟨fun h => h.2, fun h => ⟨hlt x h, h⟩⟩
  conv => arg 2; rw [← h2]
  rw [List.forall₂_map_left_iff, List.forall₂_map_right_iff, List.forall₂_same]
  intro p hp
  have := List.mem_zipIdx (List.mem_filter.mp hp).1
  simp only [Nat.zero_add, Nat.sub_zero] at this
  exact List.getElem?_eq_some_iff.mpr ⟨this.2.1, this.2.2.symm⟩

theorem resRefs_ok {d : Struc K} {refs : List ResRef} {run : Int} {rescases : CasesArg}
    (ho : d.isOpen = true) (hr : d.rdresref = some refs) (hc : rescases ≠ .other) :
    ∃ w, resRefs d run rescases = .ok w ∧ w.Sublist refs ∧
      ∀ r, r ∈ w ↔ Wanted refs run rescases r := by
  unfold resRefs need
  rw [ho, hr]
  simp only [if_true, bind_ok]
  cases rescases with
  | other => exact absurd rfl hc
  | all =>
    refine ⟨_, rfl, List.filter_sublist, fun r => ?_⟩
    simp [List.mem_filter, Wanted]
  | one n =>
    refine ⟨_, rfl, List.filter_sublist, fun r => ?_⟩
    simp only [List.mem_filter, Wanted, Bool.and_eq_true, decide_eq_true_eq]
    constructor
    · rintro ⟨h1, h2, rfl⟩; exact ⟨h1, h2, .inr (.inl rfl)⟩
    · rintro ⟨h1, h2, h | h | ⟨_, h, _⟩⟩
      · cases h
      · injection h with h; exact ⟨h1, h2, h.symm⟩
      · cases h
  | many l =>
    refine ⟨_, rfl, List.filter_sublist, fun r => ?_⟩
    simp [List.mem_filter, Wanted]

theorem complexFlag_ok {flags : List Int} {flag : Int} (hne : flags ≠ [])
    (h : ∀ f ∈ flags, f = flag) : complexFlag flags = .ok flag := by
  cases flags with
  | nil => exact absurd rfl hne
  | cons f l =>
    have hf := h f List.mem_cons_self
    subst hf
    unfold complexFlag
    simp only
    rw [if_pos]
    rw [List.all_eq_true]
    intro x hx
    simpa using h x hx

/-- the slices of the wanted rows: the values of the wanted cases and nodes -/
theorem filter_records {rs : List (CaseRes K)} {rows : List NodeRes} {arr : List K}
    (hf : List.Forall₂ (fun (e : Int × Nat × List (Num K)) (r : NodeRes) => r.ires = e.1 ∧
      r.iinod = e.2.1 ∧ Part arr r.start r.stop (e.2.2.flatMap raw)) (records rs) rows)
    (I N : List Int) :
    ((rows.filter fun r => decide (r.ires ∈ I) && decide (r.iinod ∈ N)).map fun r =>
        npSlice arr r.start r.stop) =
      ((records rs).filter fun e => decide (e.1 ∈ I) && decide ((e.2.1 : Int) ∈ N)).map fun e =>
        e.2.2.flatMap raw := by
  generalize records rs = es at hf
  induction hf with
  | nil => rfl
  | @cons e r es rows h _ ih =>
    obtain ⟨h1, h2, a, b, h3, h4, _, _, h5⟩ := h
    rw [List.filter_cons, List.filter_cons, h1, h2]
    split
    · rw [List.map_cons, List.map_cons, ih, h3, h4, npSlice_nat, h5]
    · exact ih

theorem filter_case (c : CaseRes K) {I : List Int} {ns : List Nat} :
    ((c.values.zipIdx.map fun p => ((c.ires, p.2 + 1, p.1) : Int × Nat × List (Num K))).filter
        fun e => decide (e.1 ∈ I) && decide ((e.2.1 : Int) ∈ ns.map fun n : Nat => ((n + 1 : Nat) : Int))) =
      if c.ires ∈ I then (c.values.zipIdx.filter fun p => decide (p.2 ∈ ns)).map
        fun p => ((c.ires, p.2 + 1, p.1) : Int × Nat × List (Num K)) else [] := by
  have hmem : ∀ i : Nat, ((i + 1 : Nat) : Int) ∈ (ns.map fun n : Nat => ((n + 1 : Nat) : Int)) ↔
      i ∈ ns := by
    intro i
    rw [List.mem_map]
    constructor
    · rintro ⟨j, hj, h⟩
      have : j = i := by omega
      rwa [← this]
    · intro h; exact ⟨i, h, rfl⟩
  rw [List.filter_map]
  split
  · next h =>
    congr 1
    apply List.filter_congr
    intro p _
    simp only [Function.comp, decide_eq_true h, Bool.true_and, hmem]
  · next h =>
    rw [List.map_eq_nil_iff, List.filter_eq_nil_iff]
    intro p _ hp
    simp only [Function.comp, Bool.and_eq_true, decide_eq_true_eq] at hp
    exact h hp.1

/-- the values read, for the cases and nodes wanted -/
theorem records_values (rs picked : List (CaseRes K)) (hsub : picked.Sublist rs)
    (hnd : (rs.map CaseRes.ires).Nodup) {I : List Int}
    (hI : ∀ c ∈ rs, c ∈ picked ↔ c.ires ∈ I) {ns : List Nat} (hs : ns.Pairwise (· < ·))
    {k : Nat} (hlen : ∀ c ∈ rs, c.values.length = k) (hlt : ∀ n ∈ ns, n < k) :
    ∃ arrs, List.Forall₂ (fun c rows => RowsOf c ns rows) picked arrs ∧
      ((records rs).filter fun e => decide (e.1 ∈ I) &&
        decide ((e.2.1 : Int) ∈ ns.map fun n : Nat => ((n + 1 : Nat) : Int))).map
          (fun e => e.2.2) = arrs.flatten := by
  have hpick : picked = rs.filter fun c => decide (c.ires ∈ I) := by
    have hnd' : (rs.map CaseRes.ires).Nodup := hnd
    clear hlen
    induction hsub with
    | slnil => rfl
    | @cons p rs a hsub ih =>
      rw [List.map_cons, List.nodup_cons] at hnd
      have ha : a ∉ p := fun h => hnd.1 (List.mem_map.mpr ⟨a, hsub.subset h, rfl⟩)
      have hni : a.ires ∉ I := fun h => ha ((hI a List.mem_cons_self).mpr h)
      rw [List.filter_cons_of_neg (by simpa using hni)]
      exact ih hnd.2 (fun c hc => hI c (List.mem_cons_of_mem _ hc)) hnd.2
    | @cons_cons p rs a hsub ih =>
      rw [List.map_cons, List.nodup_cons] at hnd
      have hi : a.ires ∈ I := (hI a List.mem_cons_self).mp List.mem_cons_self
      rw [List.filter_cons_of_pos (by simpa using hi)]
      congr 1
      refine ih hnd.2 (fun c hc => ?_) hnd.2
      rw [← hI c (List.mem_cons_of_mem _ hc), List.mem_cons]
      constructor
      · exact .inr
      · rintro (rfl | h)
        · exact absurd (List.mem_map.mpr ⟨c, hc, rfl⟩) hnd.1
        · exact h
  subst hpick
  clear hsub hI hnd
  induction rs with
  | nil => exact ⟨[], .nil, rfl⟩
  | cons c rs ih =>
    obtain ⟨arrs, h1, h2⟩ := ih fun c hc => hlen c (List.mem_cons_of_mem _ hc)
    unfold records at h2 ⊢
    rw [List.flatMap_cons, List.filter_append, List.map_append, h2, filter_case]
    by_cases hc : c.ires ∈ I
    · rw [if_pos hc, List.map_map, List.filter_cons_of_pos (by simpa using hc)]
      refine ⟨(c.values.zipIdx.filter fun p => decide (p.2 ∈ ns)).map Prod.fst :: arrs,
        .cons ?_ h1, rfl⟩
      exact filter_zipIdx hs fun n hn => by rw [hlen c List.mem_cons_self]; exact hlt n hn
    · rw [if_neg hc, List.filter_cons_of_neg (by simpa using hc)]
      exact ⟨arrs, h1, rfl⟩

theorem takeNodes_shaped {β : Type} {is : List Int} {arrs outs : List (List (List β))}
    (h : List.Forall₂ (fun a o => npTake a is = .ok o) arrs outs) :
    takeNodes is (shaped arrs) = .ok (shaped outs) := by
  match arrs, outs, h with
  | [], _, .nil => rfl
  | [a], _, .cons h .nil =>
    show (npTake a is).map NodeArray.single = _
    rw [h]; rfl
  | a :: b :: l, _, .cons h1 (.cons h2 h3) =>
    show ((a :: b :: l).mapM fun r => npTake r is).map NodeArray.cases = _
    rw [mapM_ok_iff (f := fun r => npTake r is) |>.mpr (.cons h1 (.cons h2 h3))]; rfl

theorem nodeResTable_ok {d : Struc K} (ho : d.isOpen = true) {restype : String}
    {t : List NodeRes × List K} (h : ResTable d restype (some t)) :
    nodeResTable d restype = .ok t := by
  have : ∀ o, ResTable d restype o → o = some t → nodeResTable d restype = .ok t := by
    intro o h e
    unfold nodeResTable need
    rw [ho]
    cases h
    · rw [if_pos rfl, e]; rfl
    · rw [if_neg (by decide), if_pos rfl, e]; rfl
    · rw [if_neg (by decide), if_neg (by decide), if_pos rfl, e]; rfl
  exact this _ h rfl

theorem chosenNodes_exists {m : Mesh K} (hv : Valid m) {sets : SetsArg} {kind : Option String}
    {es : List Nat} {l : List Element} (hl : Elements m es l) :
    ∃ ns, ChosenNodes m sets kind l false ns := by
  by_cases h : NoSelection sets kind
  · exact ⟨_, .whole h⟩
  · have e : ((npUnique (l.flatMap Element.nodes)).map (· - 1)).map (· + 1) =
        npUnique (l.flatMap Element.nodes) := by
      rw [List.map_map]
      conv_rhs => rw [← List.map_id (npUnique _)]
      apply List.map_congr_left
      intro n hn
      have := (mem_flat hv hl (mem_npUnique.mp hn)).1
      simp only [Function.comp, id]
      omega
    refine ⟨(npUnique (l.flatMap Element.nodes)).map (· - 1), .used h ?_⟩
    rw [e]
    exact ⟨npUnique_sorted _, fun n => mem_npUnique⟩

theorem nodeNumbers_internal {d : Struc K} {m : Mesh K} (hd : Holds d m) (hv : Valid m)
    {sets : SetsArg} (hs : NoSets sets ∨ HoldsSets d m) {kind : Option String} {es : List Nat}
    (hc : Chosen m sets kind es) {l : List Element} (hl : Elements m es l)
    (hne : l ≠ [] ∨ NoSelection sets kind) {disc : Bool} {ns : List Nat}
    (hn : ChosenNodes m sets kind l disc ns) :
    getNodeNumbers d sets kind disc "internal" =
      .ok (ns.map fun n : Nat => ((n + 1 : Nat) : Int)) := by
  obtain ⟨_, _, _, q2, _, rfl⟩ := nodeNumbers_ok hd hv hs hc hl hne hn
  exact q2

/-! ## C32 -/

/-- every node of the mesh belongs to an element of `l` -/
def AllUsed (m : Mesh K) (l : List Element) : Prop :=
  ∀ n, 1 ≤ n → n ≤ m.nodes.length → n ∈ l.flatMap Element.nodes

/-- the array before nodes are repeated, and what is done with it -/
theorem results_read {d : Struc K} {m : Mesh K} (hd : Holds d m) (hv : Valid m)
    {sets : SetsArg} (hs : NoSets sets ∨ HoldsSets d m) {kind : Option String} {es : List Nat}
    (hc : Chosen m sets kind es) {l : List Element} (hl : Elements m es l)
    (hne : l ≠ [] ∨ NoSelection sets kind) (hnodes : m.nodes ≠ [])
    {restype : String} {rs picked : List (CaseRes K)} (hres : HoldsRes d m restype rs)
    {refs : List ResRef} (hrefs : d.rdresref = some refs) {run : Int} {rescases : CasesArg}
    {flag : Int} (hflag : ∀ r, Wanted refs run rescases r → r.icompl = flag)
    (hpick : Picked refs run rescases rs picked)
    (hall : ∀ r, Wanted refs run rescases r → ∃ c ∈ rs, c.ires = r.ires)
    (hkind : ∀ c ∈ picked, ∀ v ∈ c.values, ∀ x ∈ v, OfKind flag x)
    (hsome : picked ≠ []) :
    ∃ nc arrs, ChosenNodes m sets kind l false nc ∧
      List.Forall₂ (fun c rows => RowsOf c nc rows) picked arrs ∧
      ∀ disc, getNodeResults d restype run rescases sets kind disc =
        if disc = true then
          (nodeIndices d sets kind disc >>= fun is => updateConnectivity is >>= fun is' =>
            takeNodes is' (shaped arrs))
        else .ok (shaped arrs) := by
  obtain ⟨rows, arr, htab, hrec⟩ := hres.table
  have hother : rescases ≠ .other := by
    rintro rfl
    obtain ⟨c, hc'⟩ := List.exists_mem_of_ne_nil _ hsome
    obtain ⟨r, hw, _⟩ := (hpick.2 c (hpick.1.subset hc')).mp hc'
    obtain ⟨_, _, h | h | ⟨_, h, _⟩⟩ := hw <;> cases h
  obtain ⟨w, hw1, _, hw2⟩ := resRefs_ok (run := run) hd.isOpen hrefs hother
  have hwne : w ≠ [] := by
    obtain ⟨c, hc'⟩ := List.exists_mem_of_ne_nil _ hsome
    obtain ⟨r, hw, _⟩ := (hpick.2 c (hpick.1.subset hc')).mp hc'
    exact List.ne_nil_of_mem ((hw2 r).mpr hw)
  have hfl : complexFlag (w.map ResRef.icompl) = .ok flag :=
    complexFlag_ok (by simpa using hwne) (by
      intro f hf
      obtain ⟨r, hr, rfl⟩ := List.mem_map.mp hf
      exact hflag r ((hw2 r).mp hr))
  -- the nodes whose results are read
  obtain ⟨nc, hnc⟩ := chosenNodes_exists (sets := sets) (kind := kind) hv hl
  have hnums := nodeNumbers_internal hd hv hs hc hl hne hnc
  have hnlt := nodes_lt hv hl hnc
  have hnsort : nc.Pairwise (· < ·) := by
    cases hnc with
    | whole _ => exact List.pairwise_lt_range
    | used _ h =>
      have := h.1
      rw [List.pairwise_map] at this
      exact this.imp fun h => by omega
  have hncne : nc ≠ [] := by
    cases hnc with
    | whole _ =>
      intro h
      rw [List.range_eq_nil, List.length_eq_zero_iff] at h
      exact hnodes h
    | used h hu =>
      rcases hne with hne | hno
      · have hf := flat_ne hv hl hne
        obtain ⟨n, hn⟩ := List.exists_mem_of_ne_nil _ hf
        intro he
        have := (hu.2 n).mpr hn
        rw [he] at this; simp at this
      · exact absurd hno h
  have hI : ∀ c ∈ rs, c ∈ picked ↔ c.ires ∈ npUnique (w.map ResRef.ires) := by
    intro c hc'
    rw [hpick.2 c hc', mem_npUnique, List.mem_map]
    constructor
    · rintro ⟨r, h1, h2⟩; exact ⟨r, (hw2 r).mpr h1, h2⟩
    · rintro ⟨r, h1, h2⟩; exact ⟨r, (hw2 r).mp h1, h2⟩
  obtain ⟨arrs, ha1, ha2⟩ := records_values rs picked hpick.1 hres.distinct hI hnsort
    (k := m.nodes.length) (fun c hc' => (hres.complete c hc').1) hnlt
  have hlenI : (npUnique (w.map ResRef.ires)).length = arrs.length := by
    rw [← ha1.length_eq]
    have hp : (npUnique (w.map ResRef.ires)).Perm (picked.map CaseRes.ires) := by
      refine (List.perm_ext_iff_of_nodup ?_ ?_).mpr ?_
      · exact (npUnique_sorted _).imp fun h => ne_of_lt h
      · exact hres.distinct.sublist (hpick.1.map _)
      · intro x
        rw [List.mem_map]
        constructor
        · intro hx
          obtain ⟨r, hr, rfl⟩ := List.mem_map.mp (mem_npUnique.mp hx)
          obtain ⟨c, hc1, hc2⟩ := hall r ((hw2 r).mp hr)
          exact ⟨c, (hpick.2 c hc1).mpr ⟨r, (hw2 r).mp hr, hc2.symm⟩, hc2⟩
        · rintro ⟨c, hc1, rfl⟩
          exact (hI c (hpick.1.subset hc1)).mp hc1
    rw [hp.length_eq, List.length_map]
  have harrs : ∀ a ∈ arrs, a.length = nc.length ∧ ∀ v ∈ a, v.length = 6 ∧ ∀ x ∈ v, OfKind flag x := by
    intro a ha
    obtain ⟨c, hc1, hr⟩ : ∃ c ∈ picked, RowsOf c nc a := by
      clear hlenI ha2 hsome hI hpick hall hkind
      induction ha1 with
      | nil => simp at ha
      | cons h _ ih =>
        rcases List.mem_cons.mp ha with rfl | ha
        · exact ⟨_, List.mem_cons_self, h⟩
        · obtain ⟨c, hc, h⟩ := ih ha
          exact ⟨c, List.mem_cons_of_mem _ hc, h⟩
    refine ⟨(List.Forall₂.length_eq hr).symm, fun v hvm => ?_⟩
    have hmem : v ∈ c.values := by
      unfold RowsOf at hr
      clear ha hnc hnums hnlt hnsort hncne ha1 ha2
      induction hr with
      | nil => simp at hvm
      | cons h _ ih =>
        rcases List.mem_cons.mp hvm with rfl | hvm
        · exact List.mem_of_getElem? h
        · exact ih hvm
    exact ⟨(hres.complete c (hpick.1.subset hc1)).2 v hmem, hkind c hc1 v hmem⟩
  have harne : arrs ≠ [] := by
    intro h
    rw [h] at ha1
    cases ha1
    exact hsome rfl
  -- the array before nodes are repeated
  have hconn : ∀ {β : Type} (k : NodeArray (Num K) → Except Err β),
      (nodeResTable d restype >>= fun t => resRefs d run rescases >>= fun resrefs =>
        complexFlag (resrefs.map ResRef.icompl) >>= fun flag =>
        getNodeNumbers d sets kind false "internal" >>= fun nodenumbs =>
        npConcat ((t.1.filter fun r => decide (r.ires ∈ npUnique (resrefs.map ResRef.ires)) &&
          decide (r.iinod ∈ nodenumbs)).map fun r => npSlice t.2 r.start r.stop) >>= fun data =>
        asNums flag data >>= fun nums =>
        reshapeNodes (npUnique (resrefs.map ResRef.ires)).length nums >>= k) = k (shaped arrs) := by
    intro β k
    rw [nodeResTable_ok hd.isOpen htab, bind_ok, hw1, bind_ok, hfl, bind_ok, hnums, bind_ok]
    simp only
    rw [filter_records hrec]
    have e : (((records rs).filter fun e =>
        decide (e.1 ∈ npUnique (w.map ResRef.ires)) &&
        decide ((e.2.1 : Int) ∈ nc.map fun n : Nat => ((n + 1 : Nat) : Int))).map
          fun e => e.2.2.flatMap raw) = arrs.flatten.map fun v => v.flatMap raw := by
      rw [← ha2, List.map_map]; rfl
    rw [e]
    have hfne : arrs.flatten ≠ [] := by
      obtain ⟨a, ha⟩ := List.exists_mem_of_ne_nil _ harne
      have hla := (harrs a ha).1
      intro h
      rw [List.flatten_eq_nil_iff] at h
      rw [h a ha, List.length_nil] at hla
      exact hncne (List.length_eq_zero_iff.mp hla.symm)
    rw [npConcat_ok (by simpa using hfne), bind_ok]
    have e2 : (arrs.flatten.map fun v => v.flatMap raw).flatten =
        (arrs.map List.flatten).flatten.flatMap raw := by
      rw [← List.flatten_flatten, ← List.flatMap_def]
      generalize arrs.flatten = vs
      induction vs with
      | nil => rfl
      | cons v vs ih => rw [List.flatMap_cons, List.flatten_cons, List.flatMap_append, ih]
    rw [e2, asNums_ok, bind_ok, hlenI, reshape_ok (n := nc.length) harne, bind_ok]
    · intro a ha
      exact ⟨(harrs a ha).1, fun v hv => ((harrs a ha).2 v hv).1⟩
    · intro x hx
      obtain ⟨f, hf, hx⟩ := List.mem_flatten.mp hx
      obtain ⟨a, ha, rfl⟩ := List.mem_map.mp hf
      obtain ⟨v, hvm, hx⟩ := List.mem_flatten.mp hx
      exact ((harrs a ha).2 v hvm).2 x hx
  refine ⟨nc, arrs, hnc, ha1, fun disc => ?_⟩
  have hunf := hconn (fun arr => if disc = true then
      (nodeIndices d sets kind disc >>= fun is => updateConnectivity is >>= fun is' =>
        takeNodes is' arr) else .ok arr)
  show getNodeResults d restype run rescases sets kind disc =
      (if disc = true then
      (nodeIndices d sets kind disc >>= fun is => updateConnectivity is >>= fun is' =>
        takeNodes is' (shaped arrs)) else .ok (shaped arrs))
  rw [← hunf]; rfl

/-- rows taken from other rows -/
theorem rows_take {picked : List (CaseRes K)} {arrs : List (List (List (Num K)))} {nc ns : List Nat}
    {con : List Int} (ha : List.Forall₂ (fun c rows => RowsOf c nc rows) picked arrs)
    (hcon : List.Forall₂ (fun (c : Int) (n : Nat) => ∃ k : Nat, c = k ∧ nc[k]? = some n) con ns) :
    ∃ outs, List.Forall₂ (fun c rows => RowsOf c ns rows) picked outs ∧
      List.Forall₂ (fun a o => npTake a con = .ok o) arrs outs := by
  have key : ∀ (c : CaseRes K) a, RowsOf c nc a → ∃ o, RowsOf c ns o ∧ npTake a con = .ok o := by
    intro c a hr
    induction hcon with
    | nil => exact ⟨[], .nil, rfl⟩
    | @cons x n con ns h _ ih =>
      obtain ⟨o, h1, h2⟩ := ih
      obtain ⟨k, rfl, hk⟩ := h
      obtain ⟨hlt, hg⟩ := List.getElem?_eq_some_iff.mp hk
      have hlt2 : k < a.length := by rw [← List.Forall₂.length_eq hr]; exact hlt
      have hget := (List.forall₂_iff_get.mp hr).2 k hlt hlt2
      simp only [List.get_eq_getElem, hg] at hget
      refine ⟨a[k] :: o, .cons hget h1, ?_⟩
      unfold npTake at h2 ⊢
      rw [List.mapM_cons, npAt_nat (List.getElem?_eq_getElem hlt2), bind_ok, h2]; rfl
  induction ha with
  | nil => exact ⟨[], .nil, .nil⟩
  | cons h _ ih =>
    obtain ⟨outs, h1, h2⟩ := ih
    obtain ⟨o, h3, h4⟩ := key _ _ h
    exact ⟨o :: outs, .cons h3 h1, .cons h4 h2⟩

/-- **C32** (partial: `disconnected` without a selection only if every node belongs to an element,
see `unused_nodes_misalign`.)  The array has for each wanted result case, in the order of the
file, and each node of the selection, in the order of `get_nodes`, the six values of the record of
that case and that node; for a single case the axis of cases is left out. -/
theorem node_results_line_up_partial {d : Struc K} {m : Mesh K} (hd : Holds d m) (hv : Valid m)
    {sets : SetsArg} (hs : NoSets sets ∨ HoldsSets d m) {kind : Option String} {es : List Nat}
    (hc : Chosen m sets kind es) {l : List Element} (hl : Elements m es l)
    (hne : l ≠ [] ∨ NoSelection sets kind) {disc : Bool} {ns : List Nat}
    (hn : ChosenNodes m sets kind l disc ns) (hnodes : m.nodes ≠ [])
    (hdisc : disc = false ∨ l ≠ [] ∧ (¬ NoSelection sets kind ∨ AllUsed m l))
    {restype : String} {rs picked : List (CaseRes K)} (hres : HoldsRes d m restype rs)
    {refs : List ResRef} (hrefs : d.rdresref = some refs) {run : Int} {rescases : CasesArg}
    {flag : Int} (hflag : ∀ r, Wanted refs run rescases r → r.icompl = flag)
    (hpick : Picked refs run rescases rs picked)
    (hall : ∀ r, Wanted refs run rescases r → ∃ c ∈ rs, c.ires = r.ires)
    (hkind : ∀ c ∈ picked, ∀ v ∈ c.values, ∀ x ∈ v, OfKind flag x)
    (hsome : picked ≠ []) :
    ∃ arrs, List.Forall₂ (fun c rows => RowsOf c ns rows) picked arrs ∧
      (∀ rows, arrs = [rows] →
        getNodeResults d restype run rescases sets kind disc = .ok (.single rows)) ∧
      (arrs.length ≠ 1 →
        getNodeResults d restype run rescases sets kind disc = .ok (.cases arrs)) := by
  obtain ⟨nc, arrs, hnc, ha1, hun'⟩ := results_read hd hv hs hc hl hne hnodes hres hrefs hflag
    hpick hall hkind hsome
  have hun := hun' disc
  have fin : ∀ outs, List.Forall₂ (fun c rows => RowsOf c ns rows) picked outs →
      getNodeResults d restype run rescases sets kind disc = .ok (shaped outs) →
      ∃ arrs, List.Forall₂ (fun c rows => RowsOf c ns rows) picked arrs ∧
      (∀ rows, arrs = [rows] →
        getNodeResults d restype run rescases sets kind disc = .ok (.single rows)) ∧
      (arrs.length ≠ 1 →
        getNodeResults d restype run rescases sets kind disc = .ok (.cases arrs)) := by
    intro outs h1 h2
    refine ⟨outs, h1, ?_, ?_⟩
    · rintro rows rfl; exact h2
    · intro h
      rw [h2]
      match outs, h with
      | [], _ => rfl
      | a :: b :: l, _ => rfl
  cases disc with
  | false =>
    have : ns = nc := by
      cases hn with
      | whole h1 =>
        cases hnc with
        | whole _ => rfl
        | used h2 _ => exact absurd h1 h2
      | used h1 u1 =>
        cases hnc with
        | whole h2 => exact absurd h2 h1
        | used _ u2 =>
          have : ns.map (· + 1) = nc.map (· + 1) :=
            sorted_ext u1.1 u2.1 fun x => by rw [u1.2, u2.2]
          exact List.map_injective_iff.mpr (fun a b h => Nat.succ.inj h) this
    subst this
    exact fin arrs ha1 (by rw [hun]; rfl)
  | true =>
    rcases hdisc with h | ⟨hlne, hdisc⟩
    · exact absurd h (by decide)
    have hplaces : ns.map (· + 1) = l.flatMap Element.nodes := by
      cases hn with
      | places h => exact h
    have hdist : Distinct (l.flatMap Element.nodes) (nc.map (· + 1)) := by
      cases hnc with
      | used _ h => exact h
      | whole h0 =>
        rcases hdisc with h | h
        · exact absurd h0 h
        · refine ⟨?_, fun n => ?_⟩
          · rw [List.pairwise_map]
            exact List.pairwise_lt_range.imp fun h => by omega
          · rw [List.mem_map]
            constructor
            · rintro ⟨k, hk, rfl⟩
              exact h _ (by omega) (by have := List.mem_range.mp hk; omega)
            · intro hn'
              have := mem_flat hv hl hn'
              exact ⟨n - 1, List.mem_range.mpr (by omega), by omega⟩
    obtain ⟨con, hcon1, hcon2⟩ := updateConnectivity_ok (flat_ne hv hl hlne) hdist
    have hni := nodeIndices_ok hd hv hs hc hl hne hn
    rw [map_pred hplaces] at hcon1
    obtain ⟨outs, ho1, ho2⟩ := rows_take (con := con) (ns := ns) ha1 (by
      rw [← hplaces, List.forall₂_map_right_iff] at hcon2
      refine hcon2.imp ?_
      rintro x n ⟨k, rfl, hk⟩
      obtain ⟨n', hn', he⟩ := Option.map_eq_some_iff.mp hk
      obtain rfl : n' = n := Nat.succ.inj he
      exact ⟨k, rfl, hn'⟩)
    refine fin outs ho1 ?_
    rw [hun, if_pos rfl, hni, bind_ok, hcon1, bind_ok, takeNodes_shaped ho2]


/-- number of nodes before node `n` (counted from 0) that belong to an element of `l` -/
def usedBefore (l : List Element) (n : Nat) : Nat :=
  ((List.range n).filter fun k => k + 1 ∈ l.flatMap Element.nodes).length

theorem used_get (l : List Element) {n k : Nat} (hn : n + 1 ∈ l.flatMap Element.nodes) (hk : n < k) :
    ((List.range k).filter fun i => i + 1 ∈ l.flatMap Element.nodes)[usedBefore l n]? = some n := by
  obtain ⟨j, rfl⟩ : ∃ j, k = n + (j + 1) := ⟨k - n - 1, by omega⟩
  rw [List.range_add, List.filter_append, usedBefore, List.getElem?_append_right (le_refl _),
    Nat.sub_self, List.range_succ_eq_map, List.map_cons, List.filter_cons_of_pos]
  · rfl
  · simpa using hn

/-- **C79.** `get_noderesults` with `disconnected` and without a selection: the values at each
place of each element are those of the node whose position is the number of nodes before the node
at that place that belong to elements. -/
theorem disconnected_results {d : Struc K} {m : Mesh K} (hd : Holds d m) (hv : Valid m)
    {sets : SetsArg} {kind : Option String} (hno : NoSelection sets kind) {es : List Nat}
    (hc : Chosen m sets kind es) {l : List Element} (hl : Elements m es l) (hne : l ≠ [])
    {ns : List Nat} (hn : ns.map (· + 1) = l.flatMap Element.nodes)
    (hnodes : m.nodes ≠ [])
    {restype : String} {rs picked : List (CaseRes K)} (hres : HoldsRes d m restype rs)
    {refs : List ResRef} (hrefs : d.rdresref = some refs) {run : Int} {rescases : CasesArg}
    {flag : Int} (hflag : ∀ r, Wanted refs run rescases r → r.icompl = flag)
    (hpick : Picked refs run rescases rs picked)
    (hall : ∀ r, Wanted refs run rescases r → ∃ c ∈ rs, c.ires = r.ires)
    (hkind : ∀ c ∈ picked, ∀ v ∈ c.values, ∀ x ∈ v, OfKind flag x)
    (hsome : picked ≠ []) :
    ∃ arrs, List.Forall₂ (fun c rows => RowsOf c (ns.map (usedBefore l)) rows) picked arrs ∧
      (∀ rows, arrs = [rows] →
        getNodeResults d restype run rescases sets kind true = .ok (.single rows)) ∧
      (arrs.length ≠ 1 →
        getNodeResults d restype run rescases sets kind true = .ok (.cases arrs)) := by
  obtain ⟨nc, arrs, hnc, ha1, hun⟩ := results_read hd hv (.inl hno.1) hc hl (.inl hne) hnodes hres hrefs hflag
    hpick hall hkind hsome
  obtain rfl : nc = List.range m.nodes.length := by
    cases hnc with
    | whole _ => rfl
    | used h _ => exact absurd hno h
  have hmem : ∀ n ∈ ns, n + 1 ∈ l.flatMap Element.nodes := by
    intro n hn'
    rw [← hn]
    exact List.mem_map_of_mem hn'
  have hlt : ∀ n ∈ ns, n < m.nodes.length := by
    intro n hn'
    have := mem_flat hv hl (hmem n hn')
    omega
  have hdist : Distinct (l.flatMap Element.nodes)
      (((List.range m.nodes.length).filter fun i => i + 1 ∈ l.flatMap Element.nodes).map (· + 1)) := by
    refine ⟨?_, fun n => ?_⟩
    · rw [List.pairwise_map]
      exact (List.pairwise_lt_range.sublist List.filter_sublist).imp fun h => by omega
    · rw [List.mem_map]
      constructor
      · rintro ⟨k, hk, rfl⟩
        exact of_decide_eq_true (List.mem_filter.mp hk).2
      · intro h
        have := mem_flat hv hl h
        refine ⟨n - 1, List.mem_filter.mpr ⟨List.mem_range.mpr (by omega), ?_⟩, by omega⟩
        rw [show n - 1 + 1 = n by omega]
        exact decide_eq_true h
  obtain ⟨con, hcon1, hcon2⟩ := updateConnectivity_ok (flat_ne hv hl hne) hdist
  have hni := nodeIndices_ok hd hv (.inl hno.1) hc hl (.inl hne) (.places hn)
  rw [map_pred hn] at hcon1
  have hnodup := (List.nodup_range (n := m.nodes.length)).sublist
    (List.filter_sublist (p := fun i => decide (i + 1 ∈ l.flatMap Element.nodes)))
  obtain ⟨outs, ho1, ho2⟩ := rows_take (con := con) (ns := ns.map (usedBefore l)) ha1 (by
    have hcon3 : List.Forall₂ (fun (x : Int) (n : Nat) => ∃ k : Nat, x = k ∧
          ((List.filter (fun i => decide (i + 1 ∈ l.flatMap Element.nodes))
            (List.range m.nodes.length))[k]?).map (· + 1) = some n) con (ns.map (· + 1)) := by
      rw [hn]; exact hcon2
    rw [List.forall₂_map_right_iff] at hcon3
    rw [List.forall₂_map_right_iff]
    have : ∀ {con' : List Int} {ns' : List Nat}, (∀ n ∈ ns', n ∈ ns) →
        List.Forall₂ (fun (x : Int) (n : Nat) => ∃ k : Nat, x = k ∧
          ((List.filter (fun i => decide (i + 1 ∈ l.flatMap Element.nodes))
            (List.range m.nodes.length))[k]?).map (· + 1) = some (n + 1)) con' ns' →
        List.Forall₂ (fun (x : Int) (n : Nat) => ∃ k : Nat, x = k ∧
          (List.range m.nodes.length)[k]? = some (usedBefore l n)) con' ns' := by
      intro con' ns' hsub h
      induction h with
      | nil => exact .nil
      | @cons x n con' ns' h _ ih =>
        refine .cons ?_ (ih fun n hn => hsub n (List.mem_cons_of_mem _ hn))
        obtain ⟨k, rfl, hk⟩ := h
        obtain ⟨n', hn', he⟩ := Option.map_eq_some_iff.mp hk
        obtain rfl : n' = n := Nat.succ.inj he
        have hin := hsub n' List.mem_cons_self
        have hg := used_get l (hmem n' hin) (hlt n' hin)
        obtain ⟨h1, h2⟩ := List.getElem?_eq_some_iff.mp hn'
        obtain ⟨h3, h4⟩ := List.getElem?_eq_some_iff.mp hg
        obtain rfl : k = usedBefore l n' := (List.Nodup.getElem_inj_iff hnodup).mp (h2.trans h4.symm)
        refine ⟨_, rfl, ?_⟩
        rw [List.getElem?_range]
        have := List.length_filter_le (fun i => decide (i + 1 ∈ l.flatMap Element.nodes))
          (List.range m.nodes.length)
        rw [List.length_range] at this
        omega
    exact this (fun n h => h) hcon3)
  have h2 : getNodeResults d restype run rescases sets kind true = .ok (shaped outs) := by
    rw [hun true, if_pos rfl, hni, bind_ok, hcon1, bind_ok, takeNodes_shaped ho2]
  refine ⟨outs, ho1, ?_, ?_⟩
  · rintro rows rfl; exact h2
  · intro h
    rw [h2]
    match outs, h with
    | [], _ => rfl
    | a :: b :: l, _ => rfl

/-- **C79.** These are the values of the node itself exactly if every node before it belongs to an
element. -/
theorem usedBefore_eq (l : List Element) (n : Nat) :
    usedBefore l n = n ↔ ∀ k < n, k + 1 ∈ l.flatMap Element.nodes := by
  unfold usedBefore
  have := List.length_filter_eq_length_iff
    (l := List.range n) (p := fun k => decide (k + 1 ∈ l.flatMap Element.nodes))
  rw [List.length_range] at this
  rw [this]
  simp [List.mem_range]

/-- **C79.** Without any elements the call raises ValueError. -/
theorem disconnected_no_elements {d : Struc K} {m : Mesh K} (hd : Holds d m) (hv : Valid m)
    {sets : SetsArg} {kind : Option String} (hno : NoSelection sets kind)
    {es : List Nat}
    (hc : Chosen m sets kind es) (hl : Elements m es [])
    (hnodes : m.nodes ≠ [])
    {restype : String} {rs picked : List (CaseRes K)} (hres : HoldsRes d m restype rs)
    {refs : List ResRef} (hrefs : d.rdresref = some refs) {run : Int} {rescases : CasesArg}
    {flag : Int} (hflag : ∀ r, Wanted refs run rescases r → r.icompl = flag)
    (hpick : Picked refs run rescases rs picked)
    (hall : ∀ r, Wanted refs run rescases r → ∃ c ∈ rs, c.ires = r.ires)
    (hkind : ∀ c ∈ picked, ∀ v ∈ c.values, ∀ x ∈ v, OfKind flag x)
    (hsome : picked ≠ []) :
    getNodeResults d restype run rescases sets kind true = .error .valueError := by
  obtain ⟨nc, arrs, hnc, ha1, hun⟩ := results_read hd hv (.inl hno.1) hc hl (.inr hno) hnodes hres hrefs hflag
    hpick hall hkind hsome
  have hni := nodeIndices_ok hd hv (.inl hno.1) hc hl (.inr hno) (.places (ns := []) rfl)
  rw [hun true, if_pos rfl, hni, bind_ok]
  rfl

/-- **C32** The order and repetition of the result case numbers do not matter, for any data object;
a single number is the same as a sequence of it. -/
theorem rescases_order_irrelevant (d : Struc K) {c c' : CasesArg}
    (h : (∃ l l', c = .many l ∧ c' = .many l' ∧ ∀ n, n ∈ l ↔ n ∈ l') ∨
      ∃ n, c = .one n ∧ c' = .many [n])
    (restype : String) (run : Int) (sets : SetsArg) (kind : Option String) (disc : Bool) :
    getNodeResults d restype run c sets kind disc =
      getNodeResults d restype run c' sets kind disc := by
  have hr : resRefs d run c = resRefs d run c' := by
    unfold resRefs
    cases need d.isOpen d.rdresref with
    | error e => rfl
    | ok t =>
      simp only [bind_ok]
      rcases h with ⟨l, l', rfl, rfl, h⟩ | ⟨n, rfl, rfl⟩
      · simp only [h]
      · simp only [List.mem_singleton]
  unfold getNodeResults
  rw [hr]

example := rescases_order_irrelevant Demo.object (c := .many [3, 1, 3]) (c' := .many [1, 3])
  (.inl ⟨_, _, rfl, rfl, fun n => by simp only [List.mem_cons, List.not_mem_nil, or_false]; tauto⟩) "velocity" 1 .none none true

/-- **C32** Real and complex result cases together raise ResultError. -/
theorem mixed_results {d : Struc K} {restype : String} {rows : List NodeRes} {arr : List K}
    (ho : d.isOpen = true) (ht : ResTable d restype (some (rows, arr))) {refs : List ResRef}
    (hrefs : d.rdresref = some refs) {run : Int} {rescases : CasesArg} (hc : rescases ≠ .other)
    {r r' : ResRef} (h : Wanted refs run rescases r) (h' : Wanted refs run rescases r')
    (hne : r.icompl ≠ r'.icompl) (sets : SetsArg) (kind : Option String) (disc : Bool) :
    getNodeResults d restype run rescases sets kind disc = .error .resultError := by
  obtain ⟨w, hw1, _, hw2⟩ := resRefs_ok (run := run) ho hrefs hc
  have hf : complexFlag (w.map ResRef.icompl) = .error .resultError := by
    have m1 := (hw2 r).mpr h
    have m2 := (hw2 r').mpr h'
    cases w with
    | nil => simp at m1
    | cons a w =>
      rw [List.map_cons]
      unfold complexFlag
      simp only
      rw [if_neg]
      intro hall
      rw [List.all_eq_true] at hall
      have q : ∀ x ∈ a :: w, x.icompl = a.icompl := fun x hx => by
        simpa using hall x.icompl (by rw [← List.map_cons]; exact List.mem_map.mpr ⟨x, hx, rfl⟩)
      exact hne ((q r m1).trans (q r' m2).symm)
  unfold getNodeResults
  rw [nodeResTable_ok ho ht, bind_ok]
  simp only
  rw [hw1, bind_ok, hf]; rfl

/-- **C32** No such result case: IndexError. -/
theorem no_such_case {d : Struc K} {restype : String} {rows : List NodeRes} {arr : List K}
    (ho : d.isOpen = true) (ht : ResTable d restype (some (rows, arr))) {refs : List ResRef}
    (hrefs : d.rdresref = some refs) {run : Int} {rescases : CasesArg} (hc : rescases ≠ .other)
    (h : ∀ r, ¬ Wanted refs run rescases r) (sets : SetsArg) (kind : Option String) (disc : Bool) :
    getNodeResults d restype run rescases sets kind disc = .error .indexError := by
  obtain ⟨w, hw1, _, hw2⟩ := resRefs_ok (run := run) ho hrefs hc
  have hw : w = [] := List.eq_nil_iff_forall_not_mem.mpr fun r hr => h r ((hw2 r).mp hr)
  unfold getNodeResults
  rw [nodeResTable_ok ho ht, bind_ok]
  simp only
  rw [hw1, bind_ok, hw]; rfl

/-- **C32** An unknown type of result raises ValueError; a type that is not on the file raises
NoSuchRecordError. -/
theorem no_such_type (d : Struc K) (restype : String) (run : Int) (rescases : CasesArg)
    (sets : SetsArg) (kind : Option String) (disc : Bool) :
    ((∀ t, ¬ ResTable d restype t) →
      getNodeResults d restype run rescases sets kind disc = .error .valueError) ∧
    (d.isOpen = true → ResTable d restype none →
      getNodeResults d restype run rescases sets kind disc = .error .noSuchRecord) := by
  constructor
  · intro h
    unfold getNodeResults nodeResTable
    have h1 : restype ≠ "displacement" := by rintro rfl; exact h _ .displacement
    have h2 : restype ≠ "velocity" := by rintro rfl; exact h _ .velocity
    have h3 : restype ≠ "acceleration" := by rintro rfl; exact h _ .acceleration
    rw [if_neg h1, if_neg h2, if_neg h3]; rfl
  · intro ho h
    have : ∀ o, ResTable d restype o → o = none → nodeResTable d restype = .error .noSuchRecord := by
      intro o h e
      unfold nodeResTable need
      rw [ho]
      cases h
      · rw [if_pos rfl, e]; rfl
      · rw [if_neg (by decide), if_pos rfl, e]; rfl
      · rw [if_neg (by decide), if_neg (by decide), if_pos rfl, e]; rfl
    unfold getNodeResults
    rw [this _ h rfl]; rfl

end Verif.Data
