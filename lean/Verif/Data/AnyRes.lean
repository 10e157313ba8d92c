import Verif.Data.ResProps
import Verif.Data.ElemResProps
/-!
# Results that are incomplete, in another order, or complex

`get_noderesults` and `get_elementresults` put the records of the wanted result cases and selected
nodes or elements one after the other and reshape what they get: the array is right only if each
case has the same nodes or elements, case by case.  Here it is said what they return for any
records whatever.
-/

namespace Verif.Data
open Verif

variable {K V : Type}

theorem pieces_spec {β : Type} (n : Nat) : ∀ (k : Nat) (l : List β), l.length = k * n →
    (pieces n k l).length = k ∧ (pieces n k l).flatten = l ∧ ∀ r ∈ pieces n k l, r.length = n
  | 0, l, h => by
    have : l = [] := List.length_eq_zero_iff.mp (by simpa using h)
    subst this
    exact ⟨rfl, rfl, by simp [pieces]⟩
  | k + 1, l, h => by
    have hn : n ≤ l.length := by rw [h, Nat.succ_mul]; omega
    obtain ⟨h1, h2, h3⟩ := pieces_spec n k (l.drop n) (by
      rw [List.length_drop, h, Nat.succ_mul]; omega)
    refine ⟨by simp [pieces, h1], by rw [pieces, List.flatten_cons, h2, List.take_append_drop], ?_⟩
    intro r hr
    rcases List.mem_cons.mp hr with rfl | hr
    · rw [List.length_take]; omega
    · exact h3 r hr

/-- the values can be cut -/
theorem cutSix_exists {β : Type} {n : Nat} (hn : 0 < n) {vs : List β}
    (h : vs.length % (n * 6) = 0) : ∃ arrs, CutSix n vs arrs := by
  obtain ⟨p, hp⟩ := Nat.dvd_of_mod_eq_zero h
  obtain ⟨h1, h2, h3⟩ := pieces_spec (p * 6) n vs (by rw [hp]; ring)
  have hsub : ∀ l ∈ pieces (p * 6) n vs, (pieces 6 p l).length = p ∧ (pieces 6 p l).flatten = l ∧
      ∀ r ∈ pieces 6 p l, r.length = 6 := fun l hl => pieces_spec 6 p l (h3 l hl)
  refine ⟨(pieces (p * 6) n vs).map (pieces 6 p), by rw [List.length_map, h1], ?_, ⟨p, ?_⟩, ?_⟩
  · rw [List.flatten_flatten]
    conv_rhs => rw [← h2]
    congr 1
    rw [List.map_map]
    conv_rhs => rw [← List.map_id (pieces (p * 6) n vs)]
    exact List.map_congr_left fun l hl => (hsub l hl).2.1
  · intro a ha
    obtain ⟨l, hl, rfl⟩ := List.mem_map.mp ha
    exact (hsub l hl).1
  · intro a ha
    obtain ⟨l, hl, rfl⟩ := List.mem_map.mp ha
    exact (hsub l hl).2.2

theorem reshape_cut {β : Type} {n : Nat} (hn : 0 < n) {vs : List β} {arrs : List (List (List β))}
    (h : CutSix n vs arrs) : reshapeNodes n vs = .ok (shaped arrs) := by
  obtain ⟨rfl, rfl, ⟨p, hp⟩, h6⟩ := h
  rw [List.flatten_flatten]
  exact reshape_ok (List.length_pos_iff.mp hn) fun a ha => ⟨hp a ha, h6 a ha⟩

theorem reshape_bad {β : Type} {n : Nat} (hn : 0 < n) {vs : List β}
    (h : ¬ ∃ arrs, CutSix n vs arrs) : reshapeNodes n vs = .error .valueError := by
  have hmod : vs.length % (n * 6) ≠ 0 := fun hm => h (cutSix_exists hn hm)
  unfold reshapeNodes
  by_cases h1 : n > 1
  · rw [if_pos h1, if_neg hmod]
  · have : n = 1 := by omega
    subst this
    rw [if_neg h1, if_neg (by simpa using hmod)]

theorem asComplex_cases : ∀ l : List K,
    (∃ vs, asComplex l = .ok vs ∧ vs.flatMap raw = l ∧ ∀ v ∈ vs, ∃ x y, v = Num.cx x y) ∨
    (asComplex l = .error .valueError ∧ ∀ vs : List (Num K), (∀ v ∈ vs, ∃ x y, v = Num.cx x y) →
      vs.flatMap raw ≠ l)
  | [] => .inl ⟨[], rfl, rfl, by simp⟩
  | [x] => .inr ⟨rfl, fun vs hvs h => by
      match vs with
      | [] => simp at h
      | v :: vs =>
        obtain ⟨a, b, rfl⟩ := hvs v List.mem_cons_self
        rw [List.flatMap_cons] at h
        simp [raw] at h⟩
  | x :: y :: l => by
    rcases asComplex_cases l with ⟨vs, h1, h2, h3⟩ | ⟨h1, h2⟩
    · refine .inl ⟨.cx x y :: vs, by rw [asComplex, h1]; rfl, by rw [List.flatMap_cons, h2]; rfl, ?_⟩
      intro v hv
      rcases List.mem_cons.mp hv with rfl | hv
      · exact ⟨x, y, rfl⟩
      · exact h3 v hv
    · refine .inr ⟨by rw [asComplex, h1]; rfl, fun vs hvs h => ?_⟩
      match vs with
      | [] => simp at h
      | v :: vs =>
        obtain ⟨a, b, rfl⟩ := hvs v List.mem_cons_self
        rw [List.flatMap_cons] at h
        simp only [raw, List.cons_append, List.nil_append, List.cons.injEq] at h
        exact h2 vs (fun v hv => hvs v (List.mem_cons_of_mem _ hv)) h.2.2

theorem asNums_cases (flag : Int) (l : List K) :
    (∃ vs, asNums flag l = .ok vs ∧ Numbers flag l vs) ∨
    (asNums flag l = .error .valueError ∧ ¬ ∃ vs, Numbers flag l vs) := by
  by_cases hf : flag = 0
  · refine .inl ⟨l.map .re, by unfold asNums; rw [if_neg (not_not.mpr hf)], ?_, ?_⟩
    · rw [List.flatMap_map]; simp [raw]
    · intro v hv
      obtain ⟨x, _, rfl⟩ := List.mem_map.mp hv
      exact .inl ⟨hf, x, rfl⟩
  · unfold asNums
    rw [if_pos hf]
    rcases asComplex_cases l with ⟨vs, h1, h2, h3⟩ | ⟨h1, h2⟩
    · exact .inl ⟨vs, h1, h2, fun v hv => .inr ⟨hf, h3 v hv⟩⟩
    · refine .inr ⟨h1, ?_⟩
      rintro ⟨vs, h3, h4⟩
      refine h2 vs (fun v hv => ?_) h3
      rcases h4 v hv with ⟨h0, _⟩ | ⟨_, h⟩
      · exact absurd h0 hf
      · exact h

theorem numbers_unique {flag : Int} {l : List K} {vs ws : List (Num K)} (h : Numbers flag l vs)
    (h' : Numbers flag l ws) : vs = ws := by
  have h1 := asNums_ok h.2
  have h2 := asNums_ok h'.2
  rw [h.1] at h1
  rw [h'.1, h1] at h2
  cases h2
  rfl

/-- the records that are read, and what is done with them -/
theorem nodeResults_head {d : Struc K} {m : Mesh K} (hd : Holds d m) (hv : Valid m)
    {sets : SetsArg} (hs : NoSets sets ∨ HoldsSets d m) {kind : Option String} {es : List Nat}
    (hc : Chosen m sets kind es) {l : List Element} (hl : Elements m es l)
    (hne : l ≠ [] ∨ NoSelection sets kind) {ns : List Nat} (hn : ChosenNodes m sets kind l false ns)
    {restype : String} {recs kept : List (NodeRec K)} (hres : HoldsNodeRecs d restype recs)
    {refs : List ResRef} (hrefs : d.rdresref = some refs) {run : Int} {rescases : CasesArg}
    {flag : Int} (hflag : ∀ r, Wanted refs run rescases r → r.icompl = flag) {cs : List Int}
    (hcs : CaseNumbers refs run rescases cs) (hcne : cs ≠ [])
    (hk : Kept (ConcernsNode refs run rescases ns) recs kept) :
    getNodeResults d restype run rescases sets kind false =
      (npConcat (kept.map NodeRec.values) >>= fun data => asNums flag data >>= fun nums =>
        reshapeNodes cs.length nums) := by
  obtain ⟨rows, arr, htab, hrec⟩ := hres
  obtain ⟨c0, hc0⟩ := List.exists_mem_of_ne_nil _ hcne
  obtain ⟨r0, hw0, _⟩ := (hcs.2 c0).mp hc0
  have hother : rescases ≠ .other := by
    rintro rfl
    obtain ⟨_, _, h | h | ⟨_, h, _⟩⟩ := hw0 <;> cases h
  obtain ⟨w, hw1, _, hw2⟩ := resRefs_ok (run := run) hd.isOpen hrefs hother
  have hwne : w ≠ [] := List.ne_nil_of_mem ((hw2 r0).mpr hw0)
  have hfl : complexFlag (w.map ResRef.icompl) = .ok flag :=
    complexFlag_ok (by simpa using hwne) (by
      intro f hf
      obtain ⟨r, hr, rfl⟩ := List.mem_map.mp hf
      exact hflag r ((hw2 r).mp hr))
  have hnums := nodeNumbers_internal hd hv hs hc hl hne hn
  have hI : ∀ c, c ∈ npUnique (w.map ResRef.ires) ↔ ∃ r, Wanted refs run rescases r ∧ r.ires = c := by
    intro c
    rw [mem_npUnique, List.mem_map]
    constructor
    · rintro ⟨r, h1, h2⟩; exact ⟨r, (hw2 r).mp h1, h2⟩
    · rintro ⟨r, h1, h2⟩; exact ⟨r, (hw2 r).mpr h1, h2⟩
  have hlen : (npUnique (w.map ResRef.ires)).length = cs.length := by
    refine List.Perm.length_eq ((List.perm_ext_iff_of_nodup ?_ hcs.1).mpr fun c => ?_)
    · exact (npUnique_sorted _).imp fun h => ne_of_lt h
    · rw [hI, hcs.2]
  have hkeep := filter_kept (cond := fun r : NodeRes =>
    decide (r.ires ∈ npUnique (w.map ResRef.ires)) &&
      decide (r.iinod ∈ ns.map fun i : Nat => ((i + 1 : Nat) : Int))) hrec hk (by
    rintro e r ⟨h1, h2, _⟩
    rw [Bool.and_eq_true, decide_eq_true_eq, decide_eq_true_eq, hI, h1, h2, List.mem_map]
    unfold ConcernsNode
    constructor
    · rintro ⟨h3, i, hi, h4⟩
      exact ⟨h3, i, hi, by omega⟩
    · rintro ⟨h3, i, hi, h4⟩
      exact ⟨h3, i, hi, by omega⟩)
  have hslices : ((rows.filter fun r : NodeRes =>
      decide (r.ires ∈ npUnique (w.map ResRef.ires)) &&
        decide (r.iinod ∈ ns.map fun i : Nat => ((i + 1 : Nat) : Int))).map fun r =>
      npSlice arr r.start r.stop) = kept.map NodeRec.values := by
    revert hkeep
    generalize (rows.filter _) = rs
    intro hkeep
    clear hk
    induction hkeep with
    | nil => rfl
    | cons h _ ih =>
      obtain ⟨_, _, a, b, h3, h4, _, _, h5⟩ := h
      rw [List.map_cons, List.map_cons, ih, h3, h4, npSlice_nat, h5]
  show (nodeResTable d restype >>= fun t => resRefs d run rescases >>= fun resrefs =>
    complexFlag (resrefs.map ResRef.icompl) >>= fun flag =>
    getNodeNumbers d sets kind false "internal" >>= fun nodenumbs =>
    npConcat ((t.1.filter fun r => decide (r.ires ∈ npUnique (resrefs.map ResRef.ires)) &&
      decide (r.iinod ∈ nodenumbs)).map fun r => npSlice t.2 r.start r.stop) >>= fun data =>
    asNums flag data >>= fun nums =>
    reshapeNodes (npUnique (resrefs.map ResRef.ires)).length nums >>= fun arr => .ok arr) = _
  rw [nodeResTable_ok hd.isOpen htab, bind_ok, hw1, bind_ok, hfl, bind_ok, hnums, bind_ok, hlen]
  show (npConcat ((rows.filter fun r : NodeRes =>
      decide (r.ires ∈ npUnique (w.map ResRef.ires)) &&
        decide (r.iinod ∈ ns.map fun i : Nat => ((i + 1 : Nat) : Int))).map fun r =>
      npSlice arr r.start r.stop) >>= _) = _
  rw [hslices]
  cases npConcat (kept.map NodeRec.values) with
  | error e => rfl
  | ok data =>
    rw [bind_ok, bind_ok]
    cases asNums flag data with
    | error e => rfl
    | ok nums =>
      rw [bind_ok, bind_ok]
      cases reshapeNodes cs.length nums <;> rfl

/-- **C83**: node results for any records whatever: the numbers of the records of the wanted cases
and selected nodes, in the order of the file, as real or complex values, are cut into rows of six
and as many arrays of equally many rows as there are wanted cases; `ValueError` if there is no such
record or if the numbers cannot be cut like that. -/
theorem node_results_any {d : Struc K} {m : Mesh K} (hd : Holds d m) (hv : Valid m)
    {sets : SetsArg} (hs : NoSets sets ∨ HoldsSets d m) {kind : Option String} {es : List Nat}
    (hc : Chosen m sets kind es) {l : List Element} (hl : Elements m es l)
    (hne : l ≠ [] ∨ NoSelection sets kind) {ns : List Nat} (hn : ChosenNodes m sets kind l false ns)
    {restype : String} {recs kept : List (NodeRec K)} (hres : HoldsNodeRecs d restype recs)
    {refs : List ResRef} (hrefs : d.rdresref = some refs) {run : Int} {rescases : CasesArg}
    {flag : Int} (hflag : ∀ r, Wanted refs run rescases r → r.icompl = flag) {cs : List Int}
    (hcs : CaseNumbers refs run rescases cs) (hcne : cs ≠ [])
    (hk : Kept (ConcernsNode refs run rescases ns) recs kept) :
    (∀ vs arrs, kept ≠ [] → Numbers flag (kept.flatMap NodeRec.values) vs → CutSix cs.length vs arrs →
      (∀ rows, arrs = [rows] →
        getNodeResults d restype run rescases sets kind false = .ok (.single rows)) ∧
      (arrs.length ≠ 1 →
        getNodeResults d restype run rescases sets kind false = .ok (.cases arrs))) ∧
    ((kept = [] ∨ ¬ ∃ vs arrs, Numbers flag (kept.flatMap NodeRec.values) vs ∧ CutSix cs.length vs arrs) →
      getNodeResults d restype run rescases sets kind false = .error .valueError) := by
  rw [nodeResults_head hd hv hs hc hl hne hn hres hrefs hflag hcs hcne hk]
  have hpos := List.length_pos_iff.mpr hcne
  by_cases hkn : kept = []
  · subst hkn
    exact ⟨fun _ _ h => absurd rfl h, fun _ => rfl⟩
  have hmn : kept.map NodeRec.values ≠ [] := by simpa using hkn
  rw [npConcat_ok hmn, bind_ok, ← List.flatMap_def]
  constructor
  · intro vs arrs _ hnum hcut
    rw [← hnum.1, asNums_ok hnum.2, bind_ok, reshape_cut hpos hcut]
    refine ⟨?_, ?_⟩
    · rintro rows rfl; rfl
    · intro h1
      match arrs with
      | [] => rfl
      | [_] => exact absurd rfl h1
      | _ :: _ :: _ => rfl
  · rintro (h | h)
    · exact absurd h hkn
    rcases asNums_cases flag (kept.flatMap NodeRec.values) with ⟨vs, h1, h2⟩ | ⟨h1, _⟩
    · rw [h1, bind_ok]
      exact reshape_bad hpos fun ⟨arrs, ha⟩ => h ⟨vs, arrs, h2, ha⟩
    · rw [h1]; rfl

/-- a record with six numbers, as three complex values -/
def IsThree (e : NodeRec K) (v : List (Num K)) : Prop :=
  ∃ a b c x y z, e.values = [a, b, c, x, y, z] ∧ v = [.cx a b, .cx c x, .cx y z]

/-- the row of two records one after the other -/
def IsRow (p : NodeRec K × NodeRec K) (row : List (Num K)) : Prop :=
  ∃ v w, IsThree p.1 v ∧ IsThree p.2 w ∧ row = v ++ w

theorem threes {p : NodeRec K × NodeRec K} {row : List (Num K)} (h : IsRow p row) :
    row.length = 6 ∧ row.flatMap raw = p.1.values ++ p.2.values ∧ ∀ v ∈ row, ∃ x y, v = Num.cx x y := by
  obtain ⟨_, _, ⟨a, b, c, x, y, z, h1, rfl⟩, ⟨a', b', c', x', y', z', h2, rfl⟩, rfl⟩ := h
  refine ⟨rfl, by rw [h1, h2]; rfl, ?_⟩
  intro v hv
  simp only [List.cons_append, List.nil_append, List.mem_cons, List.not_mem_nil, or_false] at hv
  rcases hv with rfl | rfl | rfl | rfl | rfl | rfl <;> exact ⟨_, _, rfl⟩

theorem rows_raw {ps : List (NodeRec K × NodeRec K)} {rows : List (List (Num K))}
    (h : List.Forall₂ IsRow ps rows) :
    rows.flatten.flatMap raw = (ps.flatMap fun p => [p.1, p.2]).flatMap NodeRec.values ∧
    ∀ r ∈ rows, r.length = 6 ∧ ∀ v ∈ r, ∃ x y, v = Num.cx x y := by
  induction h with
  | nil => exact ⟨rfl, by simp⟩
  | cons h _ ih =>
    obtain ⟨h1, h2, h3⟩ := threes h
    refine ⟨?_, ?_⟩
    · rw [List.flatten_cons, List.flatMap_append, ih.1, h2, List.flatMap_cons, List.flatMap_append]
      simp
    · intro r hr
      rcases List.mem_cons.mp hr with rfl | hr
      · exact ⟨h1, h3⟩
      · exact ih.2 r hr

/-- **C83**: complex node results of records of which, as for every record of complex results that
is converted, half the numbers are there (six: see C20): a row of the array is made of two records
that follow each other, three values of each; `ValueError` if the number of records is odd, or
cannot be divided like that among the cases. -/
theorem complex_node_results {d : Struc K} {m : Mesh K} (hd : Holds d m) (hv : Valid m)
    {sets : SetsArg} (hs : NoSets sets ∨ HoldsSets d m) {kind : Option String} {es : List Nat}
    (hc : Chosen m sets kind es) {l : List Element} (hl : Elements m es l)
    (hne : l ≠ [] ∨ NoSelection sets kind) {ns : List Nat} (hn : ChosenNodes m sets kind l false ns)
    {restype : String} {recs kept : List (NodeRec K)} (hres : HoldsNodeRecs d restype recs)
    {refs : List ResRef} (hrefs : d.rdresref = some refs) {run : Int} {rescases : CasesArg}
    {flag : Int} (hflag : ∀ r, Wanted refs run rescases r → r.icompl = flag) (hcx : flag ≠ 0)
    {cs : List Int} (hcs : CaseNumbers refs run rescases cs) (hcne : cs ≠ [])
    (hk : Kept (ConcernsNode refs run rescases ns) recs kept)
    (h6 : ∀ e ∈ kept, e.values.length = 6) (hsome : kept ≠ []) :
    (∀ pss arrs, pss.length = cs.length → (∃ p, ∀ ps ∈ pss, List.length ps = p) →
      kept = pss.flatten.flatMap (fun p : NodeRec K × NodeRec K => [p.1, p.2]) →
      List.Forall₂ (List.Forall₂ IsRow) pss arrs →
      (∀ rows, arrs = [rows] →
        getNodeResults d restype run rescases sets kind false = .ok (.single rows)) ∧
      (arrs.length ≠ 1 →
        getNodeResults d restype run rescases sets kind false = .ok (.cases arrs))) ∧
    (¬ 2 * cs.length ∣ kept.length →
      getNodeResults d restype run rescases sets kind false = .error .valueError) := by
  obtain ⟨hgood, hbad⟩ := node_results_any hd hv hs hc hl hne hn hres hrefs hflag hcs hcne hk
  constructor
  · intro pss arrs hlen ⟨p, hp⟩ hkept hrows
    obtain ⟨q1, q2⟩ := rows_raw (forall₂_flatten hrows)
    refine hgood arrs.flatten.flatten arrs hsome ⟨by rw [q1, ← hkept], ?_⟩
      ⟨by rw [← hrows.length_eq, hlen], rfl, ⟨p, ?_⟩, ?_⟩
    · intro v hv'
      obtain ⟨r, hr, hv'⟩ := List.mem_flatten.mp hv'
      exact .inr ⟨hcx, (q2 r hr).2 v hv'⟩
    · clear q1 q2 hkept hlen hgood hbad
      induction hrows with
      | nil => simp
      | cons h _ ih =>
        intro a ha
        rcases List.mem_cons.mp ha with rfl | ha
        · rw [← h.length_eq]; exact hp _ List.mem_cons_self
        · exact ih (fun ps hps => hp ps (List.mem_cons_of_mem _ hps)) a ha
    · intro a ha r hr
      exact (q2 r (List.mem_flatten.mpr ⟨a, ha, hr⟩)).1
  · intro hdiv
    refine hbad (.inr ?_)
    rintro ⟨vs, arrs, ⟨hn1, hn2⟩, hc1, hc2, ⟨p, hp⟩, hc3⟩
    apply hdiv
    have hraw : ∀ ws : List (Num K), (∀ v ∈ ws, OfKind flag v) → (ws.flatMap raw).length = 2 * ws.length := by
      intro ws
      induction ws with
      | nil => intro _; rfl
      | cons w ws ih =>
        intro h
        rcases h w List.mem_cons_self with ⟨h0, _⟩ | ⟨_, x, y, rfl⟩
        · exact absurd h0 hcx
        rw [List.flatMap_cons, List.length_append, ih fun v hv => h v (List.mem_cons_of_mem _ hv)]
        simp only [raw, List.length_cons, List.length_nil]; omega
    have e1 : (kept.flatMap NodeRec.values).length = kept.length * 6 := by
      rw [List.flatMap_def, length_flatten_const (n := 6), List.length_map]
      intro x hx
      obtain ⟨e, he, rfl⟩ := List.mem_map.mp hx
      exact h6 e he
    have e2 : vs.length = cs.length * p * 6 := by
      rw [← hc2, length_flatten_const (n := 6), length_flatten_const hp, hc1]
      intro r hr
      obtain ⟨a, ha, hr⟩ := List.mem_flatten.mp hr
      exact hc3 a ha r hr
    have e3 := hraw vs hn2
    rw [hn1, e1, e2] at e3
    exact ⟨p, by linarith⟩

/-! ## Element results -/

section elem
variable [Field K] [AddCommGroup V] [Module K V]

/-- the rows have the entries of their axes -/
def RowsFit (b : Block V) : Prop := (∀ r ∈ b.rows, r.length = b.dims.prod) ∧ 0 < b.dims.prod

theorem process15_fit {vs : List V} {b : Block V} (h : process15 vs = .ok (some b)) : RowsFit b := by
  unfold process15 at h
  split at h
  · cases h
    refine ⟨fun r hr => ?_, by simp⟩
    obtain ⟨_, _, rfl⟩ := List.mem_map.mp hr
    rfl
  · cases h

theorem process23_fit {s3 : K} {pos : String} {vs : List V} {b : Block V}
    (h : process23 s3 pos vs = .ok (some b)) : RowsFit b := by
  unfold process23 at h
  split at h
  · split at h <;> cases h <;> refine ⟨fun r hr => ?_, by simp⟩ <;>
      obtain ⟨_, _, rfl⟩ := List.mem_map.mp hr <;> rfl
  · cases h

theorem processThin_fit {npts : Nat} {idx : List Nat} {restype : String} {vs : List V} {b : Block V}
    (h : processThin K npts idx restype vs = .ok (some b)) : RowsFit b := by
  unfold processThin at h
  split at h
  · dsimp only at h
    split at h <;> cases h <;> refine ⟨fun r hr => ?_, by simp⟩ <;>
      obtain ⟨_, _, rfl⟩ := List.mem_map.mp hr <;> rfl
  · cases h

theorem processThick_fit {s3 : K} {n : Nat} {x : List (List K)} {restype pos : String} {vs : List V}
    {b : Block V} (h : processThick s3 n x restype pos vs = .ok (some b)) : RowsFit b := by
  unfold processThick at h
  split at h
  · dsimp only at h
    split at h
    · cases h
      refine ⟨fun r hr => ?_, by simp⟩
      obtain ⟨_, _, rfl⟩ := List.mem_map.mp hr
      rfl
    · split at h
      · split at h <;> cases h <;> refine ⟨fun r hr => ?_, by simp⟩ <;>
          obtain ⟨_, _, rfl⟩ := List.mem_map.mp hr <;> rfl
      · cases h
  · cases h

/-- the axes of what is obtained from a record, and the number of entries of a row -/
theorem processElem_dims {s3 : K} {typ : Int} {restype pos : String} {vs : List V} {b : Block V}
    (h : processElem s3 typ restype pos vs = .ok (some b)) :
    (∀ r ∈ b.rows, r.length = b.dims.prod) ∧ 0 < b.dims.prod := by
  unfold processElem at h
  split at h
  · exact process15_fit h
  split at h
  · exact process23_fit h
  split at h
  · exact processThin_fit h
  split at h
  · exact processThin_fit h
  split at h
  · exact processThick_fit h
  split at h
  · exact processThick_fit h
  · cases h

theorem splitCases_bad {restype : String} {n : Nat} {dims : List Nat} {rows : List (List V)}
    (hn : 0 < n) (hrows : ¬ n ∣ rows.length) (hlen : ∀ r ∈ rows, r.length = dims.prod)
    (hpos : 0 < dims.prod)
    (hd : restype = "generalstress" ∧ (∃ k, dims = [2, k]) ∨ restype ≠ "generalstress" ∧ ∃ k, dims = [k]) :
    splitCases restype n ⟨rows.length :: dims, rows.flatten⟩ = .error .valueError := by
  have hmod : rows.flatten.length % (n * dims.prod) ≠ 0 := by
    intro h
    rw [length_flatten_const hlen] at h
    exact hrows (Nat.dvd_of_mul_dvd_mul_right hpos (Nat.dvd_of_mod_eq_zero h))
  have h1 : n > 1 := by
    rcases Nat.lt_or_ge 1 n with h | h
    · exact h
    · have : n = 1 := by omega
      exact absurd (this ▸ one_dvd _) hrows
  unfold splitCases
  rw [if_pos h1]
  rcases hd with ⟨rfl, k, rfl⟩ | ⟨hr, k, rfl⟩
  · rw [if_pos rfl]
    show (if rows.flatten.length % (n * [2, k].prod) = 0 then _ else _) = _
    rw [if_neg hmod]
  · rw [if_neg hr]
    show (if rows.flatten.length % (n * [k].prod) = 0 then _ else _) = _
    rw [if_neg hmod]

/-- the sizes of the axes of results of a type: surfaces and components, or components -/
def AxesFit (restype : String) (dims : List Nat) : Prop :=
  restype = "generalstress" ∧ (∃ k, dims = [2, k]) ∨ restype ≠ "generalstress" ∧ ∃ k, dims = [k]

theorem collect_any {s3 : K} {restype pos : String} {conv : List K → Except Err (List V)}
    {stored : V → List K} (hconv : ∀ vs, conv (vs.flatMap stored) = .ok vs) {arr : List K}
    {kept : List (ElemRec V)} {rows : List ElemRes}
    (hr : List.Forall₂ (fun (e : ElemRec V) (r : ElemRes) => r.ires = e.ires ∧ r.iielno = e.elem ∧
      r.ir = e.typ ∧ Part arr r.start r.stop (e.values.flatMap stored)) kept rows)
    {bs : List (Block V)}
    (hb : List.Forall₂ (fun (e : ElemRec V) b => processElem s3 e.typ restype pos e.values = .ok (some b))
      kept bs) (hsome : kept ≠ []) {dims : List Nat} (hdims : ∀ b ∈ bs, b.dims = dims)
    (hfit : AxesFit restype dims) {n : Nat} (hn : 0 < n) :
    (∀ p, (bs.flatMap Block.rows).length = n * p →
      collect s3 restype pos conv arr rows n = .ok
        ⟨if n = 1 then p :: dims else n :: p :: dims, (bs.flatMap Block.rows).flatten⟩) ∧
    (¬ n ∣ (bs.flatMap Block.rows).length →
      collect s3 restype pos conv arr rows n = .error .valueError) := by
  have hm := mapM_blocks (s3 := s3) (restype := restype) (pos := pos) hconv hr (bs := bs.map some)
    (by rw [List.forall₂_map_right_iff]; exact hb)
  have hbne : bs ≠ [] := by
    rintro rfl
    cases hb
    exact hsome rfl
  have hproc : ∀ b ∈ bs, (∀ r ∈ b.rows, r.length = dims.prod) ∧ 0 < dims.prod := by
    intro b hbm
    obtain ⟨i, hi, rfl⟩ := List.getElem_of_mem hbm
    have := hb.get (by rw [hb.length_eq]; exact hi) hi
    have := processElem_dims this
    simp only [List.get_eq_getElem] at this
    rwa [hdims _ hbm] at this
  obtain ⟨b0, hb0⟩ := List.exists_mem_of_ne_nil _ hbne
  have hlen : ∀ r ∈ bs.flatMap Block.rows, r.length = dims.prod := by
    intro r hr
    obtain ⟨b, hb, hr⟩ := List.mem_flatMap.mp hr
    exact (hproc b hb).1 r hr
  unfold collect
  rw [hm, bind_ok, concatBlocks_ok hbne hdims, bind_ok]
  exact ⟨fun p hp => splitCases_ok hn hp hlen (hproc b0 hb0).2 hfit,
    fun hnd => splitCases_bad hn hnd hlen (hproc b0 hb0).2 hfit⟩

end elem

/-- **C83**: real element results for any records of the same axes, complete or not, in any order:
the rows obtained from the records of the wanted cases and selected elements, in the order of the
file, divided into as many arrays of equally many rows as there are wanted cases; `ValueError` if
the number of rows cannot be divided like that. -/
theorem element_results_any [Field K] {d : Struc K} {m : Mesh K} (hd : Holds d m) (hv : Valid m)
    {sets : SetsArg} (hs : NoSets sets ∨ HoldsSets d m) {restype kind : String} {es : List Nat}
    (hc : Chosen m sets (some kind) es) {recs kept : List (ElemRec K)}
    (hres : HoldsElemRes d restype kind storedReal recs) {refs : List ResRef}
    (hrefs : d.rdresref = some refs) {run : Int} {rescases : CasesArg}
    (hflag : ∀ r, Wanted refs run rescases r → r.icompl = 0) {cs : List Int}
    (hcs : CaseNumbers refs run rescases cs) (hcne : cs ≠ [])
    (hk : Kept (Concerns refs run rescases es) recs kept) (hsome : kept ≠ []) {s3 : K} {pos : String}
    {bs : List (Block K)}
    (hb : List.Forall₂ (fun (e : ElemRec K) b => processElem s3 e.typ restype pos e.values = .ok (some b))
      kept bs) {dims : List Nat} (hdims : ∀ b ∈ bs, b.dims = dims) (hfit : AxesFit restype dims) :
    (∀ p, (bs.flatMap Block.rows).length = cs.length * p →
      getElementResults s3 d restype pos run rescases sets = .ok (.real
        ⟨if cs.length = 1 then p :: dims else cs.length :: p :: dims,
          (bs.flatMap Block.rows).flatten⟩)) ∧
    (¬ cs.length ∣ (bs.flatMap Block.rows).length →
      getElementResults s3 d restype pos run rescases sets = .error .valueError) := by
  obtain ⟨arr, rows, h1, h2⟩ := elementResults_head hd hv hs hc hres hrefs hflag hcs hcne hk s3 pos
  obtain ⟨h3, h4⟩ := collect_any (conv := Except.ok) (stored := storedReal)
    (fun vs => by rw [real_stored]) h1 hb hsome hdims hfit (List.length_pos_iff.mpr hcne)
  rw [h2, if_neg (by simp)]
  exact ⟨fun p hp => by rw [h3 p hp]; rfl, fun hnd => by rw [h4 hnd]; rfl⟩

/-- **C83**: the same of complex element results -/
theorem element_results_any_complex [Field K] {d : Struc K} {m : Mesh K} (hd : Holds d m) (hv : Valid m)
    {sets : SetsArg} (hs : NoSets sets ∨ HoldsSets d m) {restype kind : String} {es : List Nat}
    (hc : Chosen m sets (some kind) es) {recs kept : List (ElemRec (K × K))}
    (hres : HoldsElemRes d restype kind storedComplex recs) {refs : List ResRef}
    (hrefs : d.rdresref = some refs) {run : Int} {rescases : CasesArg} {flag : Int} (hcx : flag ≠ 0)
    (hflag : ∀ r, Wanted refs run rescases r → r.icompl = flag) {cs : List Int}
    (hcs : CaseNumbers refs run rescases cs) (hcne : cs ≠ [])
    (hk : Kept (Concerns refs run rescases es) recs kept) (hsome : kept ≠ []) {s3 : K} {pos : String}
    {bs : List (Block (K × K))}
    (hb : List.Forall₂ (fun (e : ElemRec (K × K)) b =>
      processElem s3 e.typ restype pos e.values = .ok (some b))
      kept bs) {dims : List Nat} (hdims : ∀ b ∈ bs, b.dims = dims) (hfit : AxesFit restype dims) :
    (∀ p, (bs.flatMap Block.rows).length = cs.length * p →
      getElementResults s3 d restype pos run rescases sets = .ok (.complex
        ⟨if cs.length = 1 then p :: dims else cs.length :: p :: dims,
          (bs.flatMap Block.rows).flatten⟩)) ∧
    (¬ cs.length ∣ (bs.flatMap Block.rows).length →
      getElementResults s3 d restype pos run rescases sets = .error .valueError) := by
  obtain ⟨arr, rows, h1, h2⟩ := elementResults_head hd hv hs hc hres hrefs hflag hcs hcne hk s3 pos
  obtain ⟨h3, h4⟩ := collect_any (conv := asPairs) (stored := storedComplex)
    asPairs_stored h1 hb hsome hdims hfit (List.length_pos_iff.mpr hcne)
  rw [h2, if_pos hcx]
  exact ⟨fun p hp => by rw [h3 p hp]; rfl, fun hnd => by rw [h4 hnd]; rfl⟩

end Verif.Data
