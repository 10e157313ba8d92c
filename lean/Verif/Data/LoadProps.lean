import Verif.Data.LoadRows
import Verif.Data.StrucProps
/-!
# From the file to the data objects
-/

namespace Verif.Data.Load
open Verif Verif.Data Verif.Parse Verif.Seq

variable {K : Type}

/-! ### tables of rows with start and stop -/

theorem span_parts {β γ : Type} : ∀ (bys : List ((Nat → Nat → β) × List γ)) (pre : List γ),
    List.Forall₂ (fun (p : (Nat → Nat → β) × List γ) row => ∃ a b : Nat, row = p.1 a b ∧
      Part (pre ++ bys.flatMap Prod.snd) a b p.2) bys (spanRows pre.length bys)
  | [], _ => .nil
  | p :: bys, pre => by
    unfold spanRows
    refine .cons ?_ ?_
    · by_cases h : p.2.length = 0
      · rw [if_pos h]
        exact ⟨0, 0, rfl, 0, 0, rfl, rfl, by omega, by omega, by
          rw [List.length_eq_zero_iff.mp h]; rfl⟩
      · rw [if_neg h]
        refine ⟨_, _, rfl, _, _, rfl, rfl, by omega, by simp, ?_⟩
        rw [List.drop_left, List.flatMap_cons]
        simp
    · have := span_parts bys (pre ++ p.2)
      rw [List.length_append] at this
      refine this.imp ?_
      rintro q row ⟨a, b, h1, h2⟩
      refine ⟨a, b, h1, ?_⟩
      rw [List.flatMap_cons, ← List.append_assoc]
      exact h2

theorem elem_rows : ∀ (es : List Element) (n s : Nat) (bys : List ((Nat → Nat → ElemRow) × List Int)),
    List.Forall₂ (fun (x : Element × Nat) p => (∀ s t : Nat, p.1 s t = ⟨x.1.ext, x.2 + 1, x.1.typ, s, t⟩) ∧
      p.2 = x.1.nodes.map (fun n : Nat => (n : Int)) ∧ x.1.nodes ≠ []) (es.zipIdx n) bys →
    ElemRows (n + 1) s es (spanRows s bys) ∧
      bys.flatMap Prod.snd = (es.flatMap Element.nodes).map fun n : Nat => (n : Int)
  | [], n, s, bys, h => by
    cases h
    exact ⟨.nil, rfl⟩
  | e :: es, n, s, bys, h => by
    rw [List.zipIdx_cons] at h
    cases h with
    | @cons _ p _ bys h1 h2 =>
      obtain ⟨h3, h4, h5⟩ := h1
      have hlen : p.2.length = e.nodes.length := by rw [h4, List.length_map]
      have hne : ¬ p.2.length = 0 := by
        rw [hlen]
        exact fun h => h5 (List.length_eq_zero_iff.mp h)
      obtain ⟨i1, i2⟩ := elem_rows es (n + 1) (s + p.2.length) bys h2
      unfold spanRows
      rw [if_neg hne, h3, hlen]
      rw [hlen] at i1
      refine ⟨?_, ?_⟩
      · have := ElemRows.cons (n := n + 1) (s := s) (e := e) i1
        push_cast at this ⊢
        exact this
      · rw [List.flatMap_cons, List.flatMap_cons, List.map_append, i2, h4]

theorem node_rows : ∀ (ns : List (Node K)) (n : Nat) (recs : List LRec),
    List.Forall₂ IsNode recs (ns.zipIdx n) →
    ∃ bs : List NodeRow, List.Forall₂ (fun r (b : NodeRow) => ∃ x y z w, r.head = [x, y, z, w] ∧
        HasInt x b.nodex ∧ HasInt y b.nodeno) recs bs ∧ NodeRows (n + 1) ns bs
  | [], n, recs, h => by cases h; exact ⟨[], .nil, .nil⟩
  | a :: ns, n, recs, h => by
    rw [List.zipIdx_cons] at h
    cases h with
    | cons h1 h2 =>
      obtain ⟨bs, i1, i2⟩ := node_rows ns (n + 1) _ h2
      exact ⟨⟨a.ext, ((n + 1 : Nat) : Int)⟩ :: bs, .cons (by
        obtain ⟨x, y, z, w, p, q, r⟩ := h1
        exact ⟨x, y, z, w, p, q, by push_cast; exact r⟩) i1, .cons i2⟩

theorem describes {α : Type} {R : LRec → α → Prop} {recs : List LRec} {x : Option (List α)}
    (h1 : recs = [] → x = none) (h2 : ∀ bs, bs ≠ [] → List.Forall₂ R recs bs → x = some bs)
    (o : Option (List α)) (ho : Describes R recs o) : x = o := by
  cases o with
  | none => exact h1 ho
  | some bs => exact h2 bs ho.1 ho.2

theorem zipIdx_ne {α : Type} {l : List α} {n : Nat} (h : l ≠ []) : l.zipIdx n ≠ [] := by
  cases l with
  | nil => exact absurd rfl h
  | cons _ _ => simp

section
variable {sk : LRec → Bool} {e0 : Int → Option Int}
  {f : List LRec} {outs : List Added} {names : List String} {pl : Place} {s : Int} {h0 : H5}
  {lev dt : String} {ix : Option (Option Int)} {h : H5}

/-- the object made from the group of a converted file has what the file describes -/
theorem loads_struc (j : Job none sk e0 f outs names pl s h0 lev dt ix)
    (hc : Converted outs names pl s h0 lev dt ix h) (hlev : lev = "FIRSTLEVEL") (num : PyF → K) :
    ∃ d, loadStruc num h (pl.path s) = .ok d ∧ d.isOpen = true ∧ d.toplevel = none ∧
      d.filetype = pl.letter ∧ d.seltyp = s ∧ Once names d.recNames ∧ Reads num f d := by
  obtain ⟨recs, hrecs, hg, -⟩ := hc.groups
  obtain ⟨gnode, n1, -, n3⟩ := load_gnode j hc
  obtain ⟨gcoord, c1, -, c3⟩ := load_gcoord (num := num) j hc
  obtain ⟨gelmnt1, e1, -, e3⟩ := load_gelmnt1 j hc
  obtain ⟨gelref1, r1, r2, r3⟩ := load_gelref1 j hc
  obtain ⟨tdsetnam, t1, t2, t3⟩ := load_names j hc (name := "TDSETNAM") (by simp)
  obtain ⟨gsetmemb, s1, -, s3⟩ := load_gsetmemb j hc
  obtain ⟨rdresref, f1, f2, f3⟩ := load_rdresref j hc
  obtain ⟨dis, d1, -, d3⟩ := load_noderes (num := num) j hc (name := "RVNODDIS") (arr := "dis") (by simp)
  obtain ⟨vel, v1, -, v3⟩ := load_noderes (num := num) j hc (name := "RVNODVEL") (arr := "vel") (by simp)
  obtain ⟨acc, a1, -, a3⟩ := load_noderes (num := num) j hc (name := "RVNODACC") (arr := "acc") (by simp)
  obtain ⟨force, o1, -, o3⟩ := load_elemres (num := num) j hc (name := "RVFORCES") (arr := "force") (by simp)
  obtain ⟨stress, p1, -, p3⟩ := load_elemres (num := num) j hc (name := "RVSTRESS") (arr := "stress") (by simp)
  obtain ⟨gbeamg, b1, b2, b3⟩ := load_gbeamg (num := num) j hc
  obtain ⟨gelth, g1, g2, g3⟩ := load_gelth (num := num) j hc
  obtain ⟨rsuptran, u1, u2, u3⟩ := load_tran (num := num) j hc (name := "RSUPTRAN") (by simp)
  obtain ⟨tdload, l1, l2, l3⟩ := load_names j hc (name := "TDLOAD") (by simp)
  obtain ⟨index, hix⟩ : ∃ i : Option Int, (if pl.letter = "R" then
      attr (ix.orElse fun _ => ((h0.groups (pl.path s)).getD {}).index) else .ok none) = .ok i := by
    by_cases hR : pl.letter = "R"
    · rw [if_pos hR]
      have hcl := j.classified
      cases hcl
      case resOne => exact ⟨_, rfl⟩
      case resAlone => exact ⟨_, rfl⟩
      case resLow => exact ⟨_, rfl⟩
      case modAlone pre ft h1 _ => exact absurd (show ft = "R" from hR) fun hR => by subst hR; exact absurd h1 (by decide)
      case modFirst pre ft t i hp hrec lev h1 _ _ => exact absurd (show ft = "R" from hR) fun hR => by subst hR; exact absurd h1 (by decide)
      all_goals exact absurd hlev (by decide)
    · rw [if_neg hR]; exact ⟨_, rfl⟩
  refine ⟨{
        isOpen := true, toplevel := none, filetype := pl.letter, seltyp := s,
        index := index.getD 0, recNames := recs, gnode := gnode, gcoord := gcoord,
        gelmnt1 := gelmnt1, gelref1 := gelref1, tdsetnam := tdsetnam, gsetmemb := gsetmemb,
        rdresref := rdresref, rvnoddis := dis, rvnodvel := vel, rvnodacc := acc,
        rvforces := force, rvstress := stress, gbeamg := gbeamg, gelth := gelth,
        rsuptran := rsuptran, tdload := tdload }, ?_, rfl, rfl, rfl, rfl, hrecs, ?_⟩
  · unfold loadStruc
    rw [hg, n1, c1, e1, r1, t1, s1, f1, d1, v1, a1, o1, p1, b1, g1, u1, l1]
    simp only [attr, bind, Except.bind, Option.getD_some]
    simp only [attr] at hix
    by_cases hR : pl.letter = "R"
    · rw [if_pos hR] at hix ⊢
      rw [hix]
    · rw [if_neg hR] at hix ⊢
      cases hix
      rfl
  · refine { mesh := ?_, sets := ?_, noSets := t2, refs := describes f2 f3, nodeRes := ?_,
             nodeRecs := ?_, elemRes := ?_, geo := describes r2 r3, beams := describes b2 b3,
             thick := describes g2 g3, tran := describes u2 u3, loads := describes l2 l3 }
    · intro m hm
      obtain ⟨rows, k1, k2⟩ := node_rows m.nodes 0 _ hm.nodes
      have hne : rows ≠ [] := by
        have := hm.someNode
        intro hr
        rw [hr] at k2
        generalize m.nodes = ns at k2 this
        cases k2 with
        | nil => exact this rfl
      have k3 := n3 rows hne k1
      have k4 := c3 (m.nodes.map Node.pos) (by simpa using hm.someNode)
        (by rw [List.forall₂_map_right_iff]; exact hm.coords)
      obtain ⟨bys, k5, k6⟩ := e3 _ (zipIdx_ne hm.someElem) hm.elems
      obtain ⟨k7, k8⟩ := elem_rows m.elems 0 0 bys k6
      exact ⟨rfl, ⟨rows, k3, k2⟩, k4, ⟨_, by rw [k5, k8], k7⟩⟩
    · intro m hm
      have k1 := t3 (m.names.map fun p => ⟨p.2, p.1⟩) (by simpa using hm.someName)
        (by rw [List.forall₂_map_right_iff]; exact hm.names)
      obtain ⟨bys, k2, k3⟩ := s3 _ hm.someSet hm.sets
      refine ⟨k1, _, _, k2, ?_⟩
      refine (forall₂_comp' k3 (span_parts bys [])).imp ?_
      rintro x row ⟨p, ⟨q1, q2⟩, a, b, rfl, q3⟩
      rw [q1]
      exact ⟨rfl, rfl, by rw [← q2]; simpa using q3⟩
    · intro m restype rs hm
      obtain ⟨name, ht, hrs⟩ := hm.table
      have key : ∀ o : Option (List NodeRes × List K),
          (∀ xs, xs ≠ [] → List.Forall₂ (IsNodeRes num) (recordsOf name f) xs →
            ∃ bys : List ((Nat → Nat → NodeRes) × List K),
              o = some (spanRows 0 bys, bys.flatMap Prod.snd) ∧
              List.Forall₂ (fun x p => (∀ s t : Nat, p.1 s t = ⟨x.1, x.2.1, s, t⟩) ∧
                p.2 = x.2.2.flatMap raw) xs bys) →
          ∃ rows arr, o = some (rows, arr) ∧
            List.Forall₂ (fun (e : Int × Nat × List (Num K)) (r : NodeRes) => r.ires = e.1 ∧
              r.iinod = e.2.1 ∧ Part arr r.start r.stop (e.2.2.flatMap raw)) (records rs) rows := by
        intro o ho
        obtain ⟨bys, k2, k3⟩ := ho _ hm.someRecord hrs
        refine ⟨_, _, k2, (forall₂_comp' k3 (span_parts bys [])).imp ?_⟩
        rintro x row ⟨p, ⟨q1, q2⟩, a, b, rfl, q3⟩
        rw [q1]
        exact ⟨rfl, rfl, by rw [← q2]; simpa using q3⟩
      refine ⟨?_, hm.complete, hm.distinct⟩
      cases ht with
      | displacement =>
        obtain ⟨rows, arr, w1, w2⟩ := key dis d3
        exact ⟨rows, arr, w1 ▸ ResTable.displacement, w2⟩
      | velocity =>
        obtain ⟨rows, arr, w1, w2⟩ := key vel v3
        exact ⟨rows, arr, w1 ▸ ResTable.velocity, w2⟩
      | acceleration =>
        obtain ⟨rows, arr, w1, w2⟩ := key acc a3
        exact ⟨rows, arr, w1 ▸ ResTable.acceleration, w2⟩
    · intro restype recs hm
      obtain ⟨hne, name, ht, hrs⟩ := hm
      have hrs' : List.Forall₂ (IsNodeRes num) (recordsOf name f)
          (recs.map fun e => (e.ires, e.node, e.values.map Num.re)) := by
        rw [List.forall₂_map_right_iff]
        refine hrs.imp ?_
        rintro r x ⟨a, b, c, d, e, vals, w1, w2, w3, w4, w5⟩
        exact ⟨a, b, c, d, e, vals, w1, w2, w3, w4, by rw [w5, List.flatMap_map]; simp [raw]⟩
      have key : ∀ o : Option (List NodeRes × List K),
          (∀ xs, xs ≠ [] → List.Forall₂ (IsNodeRes num) (recordsOf name f) xs →
            ∃ bys : List ((Nat → Nat → NodeRes) × List K),
              o = some (spanRows 0 bys, bys.flatMap Prod.snd) ∧
              List.Forall₂ (fun x p => (∀ s t : Nat, p.1 s t = ⟨x.1, x.2.1, s, t⟩) ∧
                p.2 = x.2.2.flatMap raw) xs bys) →
          ∃ rows arr, o = some (rows, arr) ∧
            List.Forall₂ (fun (e : NodeRec K) (r : NodeRes) => r.ires = e.ires ∧
              r.iinod = e.node ∧ Part arr r.start r.stop e.values) recs rows := by
        intro o ho
        obtain ⟨bys, k2, k3⟩ := ho _ (by simpa using hne) hrs'
        rw [List.forall₂_map_left_iff] at k3
        refine ⟨_, _, k2, (forall₂_comp' k3 (span_parts bys [])).imp ?_⟩
        rintro x row ⟨p, ⟨q1, q2⟩, a, b, rfl, q3⟩
        have q4 : p.2 = x.values := by rw [q2, List.flatMap_map]; simp [raw]
        rw [q1]
        exact ⟨rfl, rfl, by rw [← q4]; simpa using q3⟩
      cases ht with
      | displacement =>
        obtain ⟨rows, arr, w1, w2⟩ := key dis d3
        exact ⟨rows, arr, w1 ▸ ResTable.displacement, w2⟩
      | velocity =>
        obtain ⟨rows, arr, w1, w2⟩ := key vel v3
        exact ⟨rows, arr, w1 ▸ ResTable.velocity, w2⟩
      | acceleration =>
        obtain ⟨rows, arr, w1, w2⟩ := key acc a3
        exact ⟨rows, arr, w1 ▸ ResTable.acceleration, w2⟩
    · intro V restype kind stored recs hm
      obtain ⟨hne, name, ht, hrs⟩ := hm
      have key : ∀ o : Option (List ElemRes × List K),
          (∀ (V : Type) (stored : V → List K) (xs : List (ElemRec V)), xs ≠ [] →
            List.Forall₂ (IsElemRes num stored) (recordsOf name f) xs →
            ∃ bys : List ((Nat → Nat → ElemRes) × List K),
              o = some (spanRows 0 bys, bys.flatMap Prod.snd) ∧
              List.Forall₂ (fun x p => (∀ s t : Nat, p.1 s t = ⟨x.ires, x.elem, x.typ, s, t⟩) ∧
                p.2 = x.values.flatMap stored) xs bys) →
          ∃ rows arr, o = some (rows, arr) ∧
            List.Forall₂ (fun (e : ElemRec V) (r : ElemRes) => r.ires = e.ires ∧ r.iielno = e.elem ∧
              r.ir = e.typ ∧ Part arr r.start r.stop (e.values.flatMap stored)) recs rows := by
        intro o ho
        obtain ⟨bys, k2, k3⟩ := ho V stored recs hne hrs
        refine ⟨_, _, k2, (forall₂_comp' k3 (span_parts bys [])).imp ?_⟩
        rintro x row ⟨p, ⟨q1, q2⟩, a, b, rfl, q3⟩
        rw [q1]
        exact ⟨rfl, rfl, rfl, by rw [← q2]; simpa using q3⟩
      cases ht with
      | beamforce =>
        obtain ⟨rows, arr, w1, w2⟩ := key force o3
        exact ⟨rows, arr, w1 ▸ ElemTable.beamforce, w2⟩
      | generalstress =>
        obtain ⟨rows, arr, w1, w2⟩ := key stress p3
        exact ⟨rows, arr, w1 ▸ ElemTable.generalstress, w2⟩
      | decomposedstress =>
        obtain ⟨rows, arr, w1, w2⟩ := key stress p3
        exact ⟨rows, arr, w1 ▸ ElemTable.decomposedstress, w2⟩

/-- the same for the group of a hierarchy -/
theorem loads_top (j : Job none sk e0 f outs names pl s h0 lev dt ix)
    (hc : Converted outs names pl s h0 lev dt ix h) (num : PyF → K) :
    ∃ d, loadTop num h (pl.path s) = .ok d ∧ d.isOpen = true ∧ ReadsTop num f d := by
  obtain ⟨recs, hrecs, hg, -⟩ := hc.groups
  obtain ⟨hier, g1, g2, g3⟩ := load_hierarch j hc
  obtain ⟨tran, u1, u2, u3⟩ := load_tran (num := num) j hc (name := "HSUPTRAN") (by simp)
  refine ⟨{ isOpen := true, hierarch := hier, hsuptran := tran }, ?_, rfl,
    ⟨describes g2 g3, describes u2 u3⟩⟩
  unfold loadTop
  rw [hg, g1, u1]
  rfl

/-! ### from the bytes of the file -/

variable {D : Dec} {st : St} {src : Source}

/-- C55: A model, load or results file whose records describe nodes, elements, sets, result cases,
results, sections, names of load cases gives, converted from its formatted or unformatted form, a
data object with just those. -/
theorem file_to_object (j : Job none sk e0 f outs names pl s h0 lev dt ix)
    (hclean : Clean pl e0 h0 st) (B : Nat) (henc : Encoded D sk f src) (hlev : lev = "FIRSTLEVEL")
    (num : PyF → K) :
    ∃ st' d, parseSource D B none st src = .ok st' ∧ loadStruc num st'.h5 (pl.path s) = .ok d ∧
      d.isOpen = true ∧ d.toplevel = none ∧ d.filetype = pl.letter ∧ d.seltyp = s ∧
      Once names d.recNames ∧ Reads num f d := by
  obtain ⟨st', h1, h2⟩ := j.source hclean B henc
  obtain ⟨d, h3⟩ := loads_struc j h2 hlev num
  exact ⟨st', d, h1, h3⟩

/-- C55: the same for the hierarchy of superelements -/
theorem file_to_hierarchy (j : Job none sk e0 f outs names pl s h0 lev dt ix)
    (hclean : Clean pl e0 h0 st) (B : Nat) (henc : Encoded D sk f src)
    (num : PyF → K) :
    ∃ st' d, parseSource D B none st src = .ok st' ∧ loadTop num st'.h5 (pl.path s) = .ok d ∧
      d.isOpen = true ∧ ReadsTop num f d := by
  obtain ⟨st', h1, h2⟩ := j.source hclean B henc
  obtain ⟨d, h3⟩ := loads_top j h2 num
  exact ⟨st', d, h1, h3⟩

/-- C56: Connectivity, offsets, types and coordinates from the bytes of the file: for any selection
of elements that the file's sets and element types define, the entries of the connectivity lead to
the coordinates given in the file for the nodes of the elements. -/
theorem file_to_mesh [Semiring K] (j : Job none sk e0 f outs names pl s h0 lev dt ix)
    (hclean : Clean pl e0 h0 st) (B : Nat) (henc : Encoded D sk f src)
    (hlev : lev = "FIRSTLEVEL") {num : PyF → K} {m : Mesh K} (hm : MeshFile num f m) (hval : Valid m)
    {sets : SetsArg} (hs : NoSets sets ∨ SetsFile f m) {kind : Option String} {es : List Nat}
    (hch : Chosen m sets kind es) {l : List Element} (hl : Elements m es l)
    (hne : l ≠ [] ∨ NoSelection sets kind) {disc : Bool} {ns : List Nat}
    (hn : ChosenNodes m sets kind l disc ns) (fuel : Nat) (index : Int) :
    ∃ st' d con offs coords, parseSource D B none st src = .ok st' ∧
      loadStruc num st'.h5 (pl.path s) = .ok d ∧
      getElements d sets kind disc = .ok (con, offs, l.map Element.typ) ∧
      getNodes d fuel sets kind disc .none index = .ok coords ∧
      List.Forall₂ (fun n p => (m.nodes[n]?).map Node.pos = some p) ns coords ∧
      Ends 0 l offs ∧
      List.Forall₂ (fun (c : Int) n => ∃ (k : Nat) (node : Node K), c = k ∧
        m.nodes[n - 1]? = some node ∧ coords[k]? = some node.pos)
        con (l.flatMap Element.nodes) := by
  obtain ⟨st', d, h1, h2, -, -, -, -, -, hr⟩ := file_to_object j hclean B henc hlev num
  have hd := hr.mesh m hm
  have hs' : NoSets sets ∨ HoldsSets d m := hs.imp id (hr.sets m)
  obtain ⟨con, offs, typs, coords, h3, h4, h5, h6⟩ :=
    connectivity_fits hd hval hs' hch hl hne hn fuel index
  obtain ⟨con', offs', h7, h8, -⟩ := offsets_delimit hd hval hs' hch hl hne hn
  rw [h3] at h7
  cases h7
  exact ⟨st', d, con, offs, coords, h1, h2, h3, h4, h5, h8, h6⟩

end

end Verif.Data.Load
