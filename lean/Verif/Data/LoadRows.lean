import Verif.Data.LoadLemmas
/-!
# Reading the tables of a converted file: structural data
-/

namespace Verif.Data.Load
open Verif Verif.Data Verif.Parse Verif.Seq

/-! ### further inversions -/

section
variable {e0 : Int → Option Int} {past : List LRec} {next : Option LRec} {r : LRec} {e : Entry}

theorem means_td (h : Means e0 past next r e) (hn : r.name ∈ ["TDSETNAM", "TDLOAD"]) :
    ∃ a b c d n ns ns' ts ts', r.head = [a, b, c, d] ∧ r.pre = (ns ++ ts).map Seg.text ∧
      HasInt c n ∧ ns.length = (n / 100).toNat ∧ List.Forall₂ Trim ns ns' ∧
      e = ⟨numbers [a, b, c, d] ++ [.sc (.txt ns'.flatten)],
          [some (List.map (fun t => Val.sc (.txt t)) ts')]⟩ := by
  cases h
  case td h1 h2 h3 h4 h5 h6 h7 =>
    exact ⟨_, _, _, _, _, _, _, _, _, rfl, rfl, h2, h4, h6, rfl⟩
  other_types hn

theorem means_gsetmemb (h : Means e0 past next r e) (hn : r.name ∈ ["GSETMEMB"]) :
    ∃ a b c d x mem, r.head = [a, b, c, d] ∧ r.vals = x :: mem ∧
      e = ⟨numbers [a, b, c, d, x], [some (numbers mem)]⟩ := by
  cases h
  case gsetmemb h1 => exact ⟨_, _, _, _, _, _, rfl, rfl, rfl⟩
  other_types hn

theorem means_rdresref (h : Means e0 past next r e) (hn : r.name ∈ ["RDRESREF"]) :
    ∃ a b c d x y z refs rvs, r.head = [a, b, c, d] ∧ r.vals = x :: y :: z :: refs ∧
      e = ⟨numbers [a, b, c, d, x, y, z], [some rvs]⟩ := by
  cases h
  case rdresref h1 h2 h3 h4 h5 => exact ⟨_, _, _, _, _, _, _, _, _, rfl, rfl, rfl⟩
  other_types hn

theorem means_tran (h : Means e0 past next r e) (hn : r.name ∈ ["RSUPTRAN", "HSUPTRAN"]) :
    ∃ a b c d i j t, r.head = [a, b, c, d] ∧ HasInt b j ∧ Verif.Parse.Matrix 4 4 (c :: d :: r.vals) t ∧
      e = ⟨[.sc (.int i), .sc (.int j), t], []⟩ := by
  cases h
  case xsuptran h1 h2 h3 h4 => exact ⟨_, _, _, _, _, _, _, rfl, h3, h4, rfl⟩
  other_types hn

theorem means_hierarch (h : Means e0 past next r e) (hn : r.name ∈ ["HIERARCH"]) :
    ∃ a b c d ihs, r.vals = a :: b :: c :: d :: ihs ∧
      e = ⟨numbers (r.head ++ [a, b, c, d]), [some (numbers ihs)]⟩ := by
  cases h
  case hierarch h1 => exact ⟨_, _, _, _, _, rfl, rfl⟩
  other_types hn

end

/-! ### values -/

theorem numbers_get {l : List PyF} {i : Nat} {x : PyF} (h : l[i]? = some x) :
    (numbers l)[i]? = some (.sc (.num x)) := by
  unfold numbers; rw [List.getElem?_map, h]; rfl

theorem stored_ints {vs : List PyF} {cs : List Cell}
    (h : List.Forall₂ (Stored .int .sc) (numbers vs) cs) :
    ∃ ys : List Int, List.Forall₂ (fun c y => asInt c = .ok y) cs ys ∧ List.Forall₂ HasInt vs ys := by
  induction vs generalizing cs with
  | nil => cases h; exact ⟨[], .nil, .nil⟩
  | cons v vs ih =>
    cases h with
    | cons h1 h2 =>
      obtain ⟨ys, h3, h4⟩ := ih h2
      cases h1 with
      | sc h1 => cases h1 with
        | int h1 => exact ⟨_ :: ys, .cons rfl h3, .cons h1 h4⟩

theorem stored_reals {K : Type} {num : PyF → K} {vs : List PyF} {cs : List Cell}
    (h : List.Forall₂ (Stored .flt .sc) (numbers vs) cs) :
    List.Forall₂ (fun c y => asReal num c = .ok y) cs (vs.map (at32 num)) := by
  induction vs generalizing cs with
  | nil => cases h; exact .nil
  | cons v vs ih =>
    cases h with
    | cons h1 h2 =>
      cases h1 with
      | sc h1 => cases h1 with
        | flt hx => exact .cons (by rw [hx.eq]; rfl) (ih h2)

theorem ints_unique {α : Type} {vs : List PyF} {ys : List Int} {ns : List α} {g : α → Int}
    (h1 : List.Forall₂ HasInt vs ys) (h2 : List.Forall₂ (fun x n => HasInt x (g n)) vs ns) :
    ys = ns.map g := by
  induction h1 generalizing ns with
  | nil => cases h2; rfl
  | cons a _ ih =>
    cases h2 with
    | cons b hb => rw [List.map_cons, a.unique b, ih hb]

theorem trims_unique {ns a b : List Str} (h1 : List.Forall₂ Trim ns a)
    (h2 : List.Forall₂ Trim ns b) : a = b := by
  induction h1 generalizing b with
  | nil => cases h2; rfl
  | cons x _ ih =>
    cases h2 with
    | cons y hy => rw [← trim_eq x, ← trim_eq y, ih hy]

theorem text_injective : Function.Injective (Seg.text : Str → Seg) := fun a b h => by cases h; rfl

theorem bind_ok {α β : Type} {x : Except Err α} {g : α → Except Err β} {b : β}
    (h : (x >>= g) = .ok b) : ∃ a, x = .ok a ∧ g a = .ok b := by
  cases x with
  | error _ => cases h
  | ok a => exact ⟨a, rfl, h⟩

/-! ### rows -/

section
variable {sk : LRec → Bool} {e0 : Int → Option Int}
  {f : List LRec} {outs : List Added} {names : List String} {pl : Place} {s : Int} {h0 : H5}
  {lev dt : String} {ix : Option (Option Int)} {h : H5} {K : Type} {num : PyF → K}

theorem load_gnode (j : Job none sk e0 f outs names pl s h0 lev dt ix)
    (hc : Converted outs names pl s h0 lev dt ix h) :
    ∃ o, table h (pl.path s) "GNODE" nodeRow = .ok o ∧ (recordsOf "GNODE" f = [] → o = none) ∧
      ∀ bs, bs ≠ [] → List.Forall₂ (fun r (b : NodeRow) => ∃ x y z w, r.head = [x, y, z, w] ∧
        HasInt x b.nodex ∧ HasInt y b.nodeno) (recordsOf "GNODE" f) bs → o = some bs := by
  refine load_table j hc (l := ⟨"GNODE", [colI "nodex", colI "nodeno", colI "ndof", colI "odof"],
    []⟩) (by decide +kernel) _ ?_
  intro r past next e lim row hn hm hr
  obtain ⟨-, hvl, he⟩ := means_fixed hm (n := 4) (k := 0) (by rw [hn]; decide)
  replace hvl := hvl.resolve_right fun h => absurd h.1 (by omega)
  obtain ⟨a, a1, a2⟩ := int_total hr (n := "nodex") 0 rfl (by decide +kernel)
  obtain ⟨b, b1, b2⟩ := int_total hr (n := "nodeno") 1 rfl (by decide +kernel)
  refine ⟨⟨a, b⟩, by unfold nodeRow; rw [a1, b1]; rfl, ?_⟩
  rintro ⟨x, y⟩ ⟨p, q, u, v, h1, h2, h3⟩
  rw [he, h1] at a2 b2
  rw [(a2 p (numbers_get rfl)).unique h2, (b2 q (numbers_get rfl)).unique h3]

theorem load_gcoord (j : Job none sk e0 f outs names pl s h0 lev dt ix)
    (hc : Converted outs names pl s h0 lev dt ix h) :
    ∃ o, table h (pl.path s) "GCOORD" (coordRow num) = .ok o ∧
      (recordsOf "GCOORD" f = [] → o = none) ∧
      ∀ bs, bs ≠ [] → List.Forall₂ (fun r (b : XYZ K) => ∃ a x y z, r.head = [a, x, y, z] ∧
        at32 num x = b.x ∧ at32 num y = b.y ∧ at32 num z = b.z) (recordsOf "GCOORD" f) bs → o = some bs := by
  refine load_table j hc (l := ⟨"GCOORD", [colI "nodeno", colF "xcoord", colF "ycoord",
    colF "zcoord"], []⟩) (by decide +kernel) _ ?_
  intro r past next e lim row hn hm hr
  obtain ⟨-, hvl, he⟩ := means_fixed hm (n := 4) (k := 0) (by rw [hn]; decide)
  replace hvl := hvl.resolve_right fun h => absurd h.1 (by omega)
  obtain ⟨a, a1, a2⟩ := real_total (num := num) hr (n := "xcoord") 1 rfl (by decide +kernel)
  obtain ⟨b, b1, b2⟩ := real_total (num := num) hr (n := "ycoord") 2 rfl (by decide +kernel)
  obtain ⟨c, c1, c2⟩ := real_total (num := num) hr (n := "zcoord") 3 rfl (by decide +kernel)
  refine ⟨⟨at32 num a, at32 num b, at32 num c⟩, by unfold coordRow; rw [a1, b1, c1]; rfl, ?_⟩
  rintro ⟨x, y, z⟩ ⟨p, q, u, v, h1, h2, h3, h4⟩
  rw [he, h1] at a2 b2 c2
  rw [← a2 q (numbers_get rfl), ← b2 u (numbers_get rfl), ← c2 v (numbers_get rfl), h2, h3, h4]

theorem load_gelmnt1 (j : Job none sk e0 f outs names pl s h0 lev dt ix)
    (hc : Converted outs names pl s h0 lev dt ix h) :
    ∃ o, tableArr h (pl.path s) "GELMNT1" "nodin" elemRow asInt = .ok o ∧
      (recordsOf "GELMNT1" f = [] → o = none) ∧
      ∀ xs, xs ≠ [] → List.Forall₂ IsElem (recordsOf "GELMNT1" f) xs →
        ∃ bys : List ((Nat → Nat → ElemRow) × List Int),
          o = some (spanRows 0 bys, bys.flatMap Prod.snd) ∧
          List.Forall₂ (fun x p => (∀ s t : Nat, p.1 s t = ⟨x.1.ext, x.2 + 1, x.1.typ, s, t⟩) ∧
            p.2 = x.1.nodes.map (fun n : Nat => (n : Int)) ∧ x.1.nodes ≠ []) xs bys := by
  refine load_arr j hc (l := ⟨"GELMNT1", [colI "elnox", colI "elno", colI "eltyp",
    colI "eltyad"], [arrI "nodin"]⟩) (by decide +kernel) (a := arrI "nodin") rfl rfl IsElem
    (fun x (b : Nat → Nat → ElemRow) ys =>
      (∀ s t : Nat, b s t = ⟨x.1.ext, x.2 + 1, x.1.typ, s, t⟩) ∧ ys = x.1.nodes.map (fun n : Nat => (n : Int)) ∧ x.1.nodes ≠ []) ?_
  intro r past next e hn hm
  obtain ⟨p, q, u, v, elno, ty, hh, -, -, hnc, he⟩ := means_gelmnt1 hm (by rw [hn]; decide)
  refine ⟨numbers r.vals, by rw [he], fun cs hcs cells hcells => ?_⟩
  obtain ⟨ys, y1, y2⟩ := stored_ints hcs
  obtain ⟨a, a1, a2⟩ := int_cells hcells (n := "elnox") 0 rfl (by decide +kernel)
  obtain ⟨b, b1, b2⟩ := int_cells hcells (n := "elno") 1 rfl (by decide +kernel)
  obtain ⟨c, c1, c2⟩ := int_cells hcells (n := "eltyp") 2 rfl (by decide +kernel)
  refine ⟨fun s t => ⟨a, b, c, s, t⟩, ys, fun s t => ?_, y1, ?_⟩
  · have hr : IsRow _ e.row (limits [(s, t)]) (cells ++ limits [(s, t)]) := ⟨cells, hcells, rfl⟩
    have l1 := int_limit hr (n := "nodin_start") 0 (k := s) (by decide +kernel) (by decide) rfl
    have l2 := int_limit hr (n := "nodin_stop") 1 (k := t) (by decide +kernel) (by decide) rfl
    unfold elemRow
    rw [a1, b1, c1, l1, l2]
    rfl
  · rintro ⟨⟨ext, typ, nodes⟩, i⟩ ⟨⟨p', q', u', v', h1, h2, h3, h4⟩, h5⟩
    rw [hh] at h1
    cases h1
    rw [he] at a2 b2 c2
    obtain rfl := (a2 p rfl).unique h2
    obtain rfl := (b2 q rfl).unique h3
    obtain rfl := (c2 u rfl).unique h4
    refine ⟨fun _ _ => rfl, ints_unique (g := fun n : Nat => (n : Int)) y2 h5, ?_⟩
    have := h5.length_eq
    intro hnil
    have hz : r.vals.length = 0 := by rw [this, hnil]; rfl
    rw [hz] at hnc
    simp [NodeCount] at hnc

theorem load_names (j : Job none sk e0 f outs names pl s h0 lev dt ix)
    (hc : Converted outs names pl s h0 lev dt ix h) {name : String}
    (hname : name ∈ ["TDSETNAM", "TDLOAD"]) :
    ∃ o, table h (pl.path s) name nameRow = .ok o ∧ (recordsOf name f = [] → o = none) ∧
      ∀ bs, bs ≠ [] → List.Forall₂ (fun r (b : NameRow) => IsName r (b.name, b.idno))
        (recordsOf name f) bs → o = some bs := by
  have hl : tdLayout name ∈ layouts := by
    have : ∀ n ∈ ["TDSETNAM", "TDLOAD"], tdLayout n ∈ layouts := by decide +kernel
    exact this _ hname
  refine load_table j hc hl _ ?_
  intro r past next e lim row hn hm hr
  obtain ⟨p, q, u, v, n, ns, ns', ts, ts', hh, hp, hi, hlen, htr, he⟩ := means_td hm
    (by rw [hn]; exact hname)
  obtain ⟨a, a1, a2⟩ := int_total hr (n := "idno") 1 rfl (by rfl)
  obtain ⟨b, b1, b2⟩ := text_total hr (n := "name") (w := 64) 4 rfl (by rfl)
  refine ⟨⟨a, b⟩, ?_, ?_⟩
  · unfold nameRow
    obtain ⟨x, x1, x2⟩ := bind_ok b1
    rw [a1, x1]
    change (asText x >>= fun t => _) = _
    rw [x2]; rfl
  · rintro ⟨x, y⟩ ⟨p', q', u', v', n', ms, ts2, ms', h1, h2, h3, h4, h5, h6, h7⟩
    rw [hh] at h1
    cases h1
    rw [he] at a2 b2
    obtain rfl := (a2 q rfl).unique h2
    obtain rfl := hi.unique h3
    rw [hp] at h4
    have h8 := (List.map_injective_iff.mpr text_injective) h4
    obtain ⟨rfl, rfl⟩ := List.append_inj h8 (by rw [hlen, h5])
    obtain rfl := trims_unique htr h6
    rw [b2 _ rfl]
    dsimp only at h7
    rw [h7]

theorem load_gsetmemb (j : Job none sk e0 f outs names pl s h0 lev dt ix)
    (hc : Converted outs names pl s h0 lev dt ix h) :
    ∃ o, tableArr h (pl.path s) "GSETMEMB" "irmemb" membRow asInt = .ok o ∧
      (recordsOf "GSETMEMB" f = [] → o = none) ∧
      ∀ xs, xs ≠ [] → List.Forall₂ IsMembers (recordsOf "GSETMEMB" f) xs →
        ∃ bys : List ((Nat → Nat → MembRow) × List Int),
          o = some (spanRows 0 bys, bys.flatMap Prod.snd) ∧
          List.Forall₂ (fun x p => (∀ s t : Nat, p.1 s t = ⟨x.id, x.kind, s, t⟩) ∧
            p.2 = x.members.map (fun n : Nat => (n : Int))) xs bys := by
  refine load_arr j hc (l := ⟨"GSETMEMB", [colI "nfield", colI "isref", colI "index",
    colI "istype", colI "isorig"], [arrI "irmemb"]⟩) (by decide +kernel) (a := arrI "irmemb") rfl rfl
    IsMembers
    (fun x (b : Nat → Nat → MembRow) ys =>
      (∀ s t : Nat, b s t = ⟨x.id, x.kind, s, t⟩) ∧ ys = x.members.map (fun n : Nat => (n : Int))) ?_
  intro r past next e hn hm
  obtain ⟨p, q, u, v, w, mem, hh, hvl, he⟩ := means_gsetmemb hm (by rw [hn]; decide)
  refine ⟨numbers mem, by rw [he], fun cs hcs cells hcells => ?_⟩
  obtain ⟨ys, y1, y2⟩ := stored_ints hcs
  obtain ⟨a, a1, a2⟩ := int_cells hcells (n := "isref") 1 rfl (by decide +kernel)
  obtain ⟨b, b1, b2⟩ := int_cells hcells (n := "istype") 3 rfl (by decide +kernel)
  refine ⟨fun s t => ⟨a, b, s, t⟩, ys, fun s t => ?_, y1, ?_⟩
  · have hr : IsRow _ e.row (limits [(s, t)]) (cells ++ limits [(s, t)]) := ⟨cells, hcells, rfl⟩
    have l1 := int_limit hr (n := "irmemb_start") 0 (k := s) (by decide +kernel) (by decide) rfl
    have l2 := int_limit hr (n := "irmemb_stop") 1 (k := t) (by decide +kernel) (by decide) rfl
    unfold membRow
    rw [a1, b1, l1, l2]
    rfl
  · rintro ⟨id, kind, members⟩ ⟨p', q', u', v', w', mem', h1, h0, h2, h3, h4⟩
    rw [hh] at h1
    rw [hvl] at h0
    cases h1
    cases h0
    rw [he] at a2 b2
    obtain rfl := (a2 q rfl).unique h2
    obtain rfl := (b2 v rfl).unique h3
    exact ⟨fun _ _ => rfl, ints_unique (g := fun n : Nat => (n : Int)) y2 h4⟩

theorem load_rdresref (j : Job none sk e0 f outs names pl s h0 lev dt ix)
    (hc : Converted outs names pl s h0 lev dt ix h) :
    ∃ o, table h (pl.path s) "RDRESREF" refRow = .ok o ∧ (recordsOf "RDRESREF" f = [] → o = none) ∧
      ∀ bs, bs ≠ [] → List.Forall₂ IsRef (recordsOf "RDRESREF" f) bs → o = some bs := by
  refine load_table j hc (l := ⟨"RDRESREF", [colI "nfield", colI "ires", colI "irno",
    colI "ieres", colI "icalty", colI "icompl", colI "numtyp"], [arrV "reftyps" 3]⟩)
    (by decide +kernel) _ ?_
  intro r past next e lim row hn hm hr
  obtain ⟨p, q, u, v, x, y, z, refs, rvs, hh, hvl, he⟩ := means_rdresref hm (by rw [hn]; decide)
  obtain ⟨a, a1, a2⟩ := int_total hr (n := "ires") 1 rfl (by decide +kernel)
  obtain ⟨b, b1, b2⟩ := int_total hr (n := "irno") 2 rfl (by decide +kernel)
  obtain ⟨c, c1, c2⟩ := int_total hr (n := "ieres") 3 rfl (by decide +kernel)
  obtain ⟨d, d1, d2⟩ := int_total hr (n := "icompl") 5 rfl (by decide +kernel)
  refine ⟨⟨a, b, c, d⟩, by unfold refRow; rw [a1, b1, c1, d1]; rfl, ?_⟩
  rintro ⟨_, _, _, _⟩ ⟨p', q', u', v', x', y', z', _, h1, h0, h2, h3, h4, h5⟩
  rw [hh] at h1
  rw [hvl] at h0
  cases h1
  cases h0
  rw [he] at a2 b2 c2 d2
  rw [(a2 _ rfl).unique h2, (b2 _ rfl).unique h3, (c2 _ rfl).unique h4, (d2 _ rfl).unique h5]

theorem load_noderes (j : Job none sk e0 f outs names pl s h0 lev dt ix)
    (hc : Converted outs names pl s h0 lev dt ix h) {name arr : String}
    (hname : (name, arr) ∈ [("RVNODDIS", "dis"), ("RVNODVEL", "vel"), ("RVNODACC", "acc")]) :
    ∃ o, tableArr h (pl.path s) name arr (nodeResRow arr) (asReal num) = .ok o ∧
      (recordsOf name f = [] → o = none) ∧
      ∀ xs, xs ≠ [] → List.Forall₂ (IsNodeRes num) (recordsOf name f) xs →
        ∃ bys : List ((Nat → Nat → NodeRes) × List K),
          o = some (spanRows 0 bys, bys.flatMap Prod.snd) ∧
          List.Forall₂ (fun x p => (∀ s t : Nat, p.1 s t = ⟨x.1, x.2.1, s, t⟩) ∧
            p.2 = x.2.2.flatMap raw) xs bys := by
  have hl : nodeResLayout name arr ∈ layouts := by
    have : ∀ p ∈ [("RVNODDIS", "dis"), ("RVNODVEL", "vel"), ("RVNODACC", "acc")],
      nodeResLayout p.1 p.2 ∈ layouts := by decide +kernel
    exact this _ hname
  have i1 : (((nodeResLayout name arr).cols ++ limitCols (nodeResLayout name arr).arrs).map
      (·.name)).idxOf (arr ++ "_start") = 5 := by
    have : ∀ p ∈ [("RVNODDIS", "dis"), ("RVNODVEL", "vel"), ("RVNODACC", "acc")],
      (((nodeResLayout p.1 p.2).cols ++ limitCols (nodeResLayout p.1 p.2).arrs).map
      (·.name)).idxOf (p.2 ++ "_start") = 5 := by decide +kernel
    exact this _ hname
  have i2 : (((nodeResLayout name arr).cols ++ limitCols (nodeResLayout name arr).arrs).map
      (·.name)).idxOf (arr ++ "_stop") = 6 := by
    have : ∀ p ∈ [("RVNODDIS", "dis"), ("RVNODVEL", "vel"), ("RVNODACC", "acc")],
      (((nodeResLayout p.1 p.2).cols ++ limitCols (nodeResLayout p.1 p.2).arrs).map
      (·.name)).idxOf (p.2 ++ "_stop") = 6 := by decide +kernel
    exact this _ hname
  refine load_arr j hc hl (a := arrF arr) rfl rfl (IsNodeRes num)
    (fun x (b : Nat → Nat → NodeRes) ys =>
      (∀ s t : Nat, b s t = ⟨x.1, x.2.1, s, t⟩) ∧ ys = x.2.2.flatMap raw) ?_
  intro r past next e hn hm
  have hrn : r.name ∈ ["RVNODACC", "RVNODDIS", "RVNODVEL"] := by
    rw [hn]
    have : ∀ p ∈ [("RVNODDIS", "dis"), ("RVNODVEL", "vel"), ("RVNODACC", "acc")],
      p.1 ∈ ["RVNODACC", "RVNODDIS", "RVNODVEL"] := by decide
    exact this _ hname
  obtain ⟨p, q, u, v, w, _, _, _, res, hh, hvl, -, -, -, -, he⟩ := means_rvnod hm hrn
  refine ⟨numbers res, by rw [he], fun cs hcs cells hcells => ?_⟩
  have y1 := stored_reals (num := num) hcs
  obtain ⟨a, a1, a2⟩ := int_cells hcells (n := "ires") 1 rfl (by rfl)
  obtain ⟨b, b1, b2⟩ := int_cells hcells (n := "iinod") 2 rfl (by rfl)
  refine ⟨fun s t => ⟨a, b, s, t⟩, res.map (at32 num), fun s t => ?_, y1, ?_⟩
  · have hr : IsRow _ e.row (limits [(s, t)]) (cells ++ limits [(s, t)]) := ⟨cells, hcells, rfl⟩
    have l1 := int_limit hr (n := arr ++ "_start") 0 (k := s) i1 (Nat.zero_lt_succ _) rfl
    have l2 := int_limit hr (n := arr ++ "_stop") 1 (k := t) i2
      (Nat.succ_lt_succ (Nat.zero_lt_succ _)) rfl
    unfold nodeResRow
    rw [a1, b1, l1, l2]
    rfl
  · rintro ⟨_, _, _⟩ ⟨p', q', u', v', w', mem', h1, h0, h2, h3, h4⟩
    rw [hh] at h1
    rw [hvl] at h0
    cases h1
    cases h0
    rw [he] at a2 b2
    obtain rfl := (a2 q rfl).unique h2
    obtain rfl := (b2 u rfl).unique h3
    exact ⟨fun _ _ => rfl, h4⟩

theorem load_elemres (j : Job none sk e0 f outs names pl s h0 lev dt ix)
    (hc : Converted outs names pl s h0 lev dt ix h) {name arr : String}
    (hname : (name, arr) ∈ [("RVFORCES", "force"), ("RVSTRESS", "stress")]) :
    ∃ o, tableArr h (pl.path s) name arr (elemResRow arr) (asReal num) = .ok o ∧
      (recordsOf name f = [] → o = none) ∧
      ∀ (V : Type) (stored : V → List K) (xs : List (ElemRec V)), xs ≠ [] →
        List.Forall₂ (IsElemRes num stored) (recordsOf name f) xs →
        ∃ bys : List ((Nat → Nat → ElemRes) × List K),
          o = some (spanRows 0 bys, bys.flatMap Prod.snd) ∧
          List.Forall₂ (fun x p => (∀ s t : Nat, p.1 s t = ⟨x.ires, x.elem, x.typ, s, t⟩) ∧
            p.2 = x.values.flatMap stored) xs bys := by
  have hl : elemResLayout name arr ∈ layouts := by
    have : ∀ p ∈ [("RVFORCES", "force"), ("RVSTRESS", "stress")],
      elemResLayout p.1 p.2 ∈ layouts := by decide +kernel
    exact this _ hname
  have i1 : (((elemResLayout name arr).cols ++ limitCols (elemResLayout name arr).arrs).map
      (·.name)).idxOf (arr ++ "_start") = 5 := by
    have : ∀ p ∈ [("RVFORCES", "force"), ("RVSTRESS", "stress")],
      (((elemResLayout p.1 p.2).cols ++ limitCols (elemResLayout p.1 p.2).arrs).map
      (·.name)).idxOf (p.2 ++ "_start") = 5 := by decide +kernel
    exact this _ hname
  have i2 : (((elemResLayout name arr).cols ++ limitCols (elemResLayout name arr).arrs).map
      (·.name)).idxOf (arr ++ "_stop") = 6 := by
    have : ∀ p ∈ [("RVFORCES", "force"), ("RVSTRESS", "stress")],
      (((elemResLayout p.1 p.2).cols ++ limitCols (elemResLayout p.1 p.2).arrs).map
      (·.name)).idxOf (p.2 ++ "_stop") = 6 := by decide +kernel
    exact this _ hname
  have key := load_arr j hc (β := ElemRes) (γ := K)
    (δ := Int × Int × Int × List K) hl (a := arrF arr) rfl rfl (f' := elemResRow arr)
    (g := asReal num)
    (fun r x => ∃ a b c d e vals, r.head = [a, b, c, d] ∧ r.vals = e :: vals ∧ HasInt b x.1 ∧
      HasInt c x.2.1 ∧ HasInt e x.2.2.1 ∧ vals.map (at32 num) = x.2.2.2)
    (fun x (b : Nat → Nat → ElemRes) ys =>
      (∀ s t : Nat, b s t = ⟨x.1, x.2.1, x.2.2.1, s, t⟩) ∧ ys = x.2.2.2) ?_
  · obtain ⟨o, h1, h2, h3⟩ := key
    refine ⟨o, h1, h2, fun V stored xs hne hxs => ?_⟩
    obtain ⟨bys, h4, h5⟩ := h3 (xs.map fun x => (x.ires, (x.elem : Int), x.typ, x.values.flatMap stored))
      (by simpa using hne) (by rw [List.forall₂_map_right_iff]; exact hxs)
    exact ⟨bys, h4, by rw [List.forall₂_map_left_iff] at h5; exact h5⟩
  intro r past next e hn hm
  have hrn : r.name ∈ ["RVFORCES", "RVSTRAIN", "RVSTRESS"] := by
    rw [hn]
    have : ∀ p ∈ [("RVFORCES", "force"), ("RVSTRESS", "stress")],
      p.1 ∈ ["RVFORCES", "RVSTRAIN", "RVSTRESS"] := by decide
    exact this _ hname
  obtain ⟨p, q, u, v, w, _, _, _, _, _, _, _, res, hh, hvl, -, -, -, -, -, -, -, -, he⟩ :=
    means_rvelm hm hrn
  refine ⟨numbers res, by rw [he], fun cs hcs cells hcells => ?_⟩
  have y1 := stored_reals (num := num) hcs
  obtain ⟨a, a1, a2⟩ := int_cells hcells (n := "ires") 1 rfl (by rfl)
  obtain ⟨b, b1, b2⟩ := int_cells hcells (n := "iielno") 2 rfl (by rfl)
  obtain ⟨c, c1, c2⟩ := int_cells hcells (n := "ir") 4 rfl (by rfl)
  refine ⟨fun s t => ⟨a, b, c, s, t⟩, res.map (at32 num), fun s t => ?_, y1, ?_⟩
  · have hr : IsRow _ e.row (limits [(s, t)]) (cells ++ limits [(s, t)]) := ⟨cells, hcells, rfl⟩
    have l1 := int_limit hr (n := arr ++ "_start") 0 (k := s) i1 (Nat.zero_lt_succ _) rfl
    have l2 := int_limit hr (n := arr ++ "_stop") 1 (k := t) i2
      (Nat.succ_lt_succ (Nat.zero_lt_succ _)) rfl
    unfold elemResRow
    rw [a1, b1, c1, l1, l2]
    rfl
  · rintro ⟨_, _, _, _⟩ ⟨p', q', u', v', w', mem', h1, h0, h2, h3, h4, h5⟩
    rw [hh] at h1
    rw [hvl] at h0
    cases h1
    cases h0
    rw [he] at a2 b2 c2
    obtain rfl := (a2 q rfl).unique h2
    obtain rfl := (b2 u rfl).unique h3
    obtain rfl := (c2 w rfl).unique h4
    exact ⟨fun _ _ => rfl, h5⟩

theorem load_gelref1 (j : Job none sk e0 f outs names pl s h0 lev dt ix)
    (hc : Converted outs names pl s h0 lev dt ix h) :
    ∃ o, table h (pl.path s) "GELREF1" (int · "geono") = .ok o ∧
      (recordsOf "GELREF1" f = [] → o = none) ∧
      ∀ bs, bs ≠ [] → List.Forall₂ IsGeo (recordsOf "GELREF1" f) bs → o = some bs := by
  refine load_table j hc (l := ⟨"GELREF1", [colI "elno", colI "matno", colI "addno",
    colI "intno", colI "mintno", colI "strano", colI "streno", colI "strepono", colI "geono",
    colI "fixno", colI "eccno", colI "transno"],
    [arrI "geono", arrI "fixno", arrI "eccno", arrI "transno"]⟩) (by decide +kernel) _ ?_
  intro r past next e lim row hn hm hr
  obtain ⟨p, q, u, v, rec2, x0, x1, x2, x3, _, _, _, _, _, _, _, hh, hp, -, -, -, -, -, -, -, -, he⟩ :=
    means_gelref1 hm (by rw [hn]; decide)
  obtain ⟨a, a1, a2⟩ := int_total hr (n := "geono") 8 rfl (by decide +kernel)
  refine ⟨a, a1, ?_⟩
  rintro g ⟨rec2', y0, y1, y2, y3, h1, h2⟩
  rw [hp] at h1
  cases h1
  have hlen : e.row.length = 12 := by obtain ⟨_, hs, _⟩ := hr; exact hs.2.1
  rw [he] at hlen a2
  have hr2 : rec2.length = 4 := by
    simp [numbers] at hlen; omega
  refine (a2 x0 (numbers_get ?_)).unique h2
  rw [List.getElem?_append_right (by simp; omega)]
  simp [hr2]

theorem load_gelth (j : Job none sk e0 f outs names pl s h0 lev dt ix)
    (hc : Converted outs names pl s h0 lev dt ix h) :
    ∃ o, table h (pl.path s) "GELTH" (thickRow num) = .ok o ∧
      (recordsOf "GELTH" f = [] → o = none) ∧
      ∀ bs, bs ≠ [] → List.Forall₂ (IsThick num) (recordsOf "GELTH" f) bs → o = some bs := by
  refine load_table j hc (l := ⟨"GELTH", [colI "geono", colF "th", colI "nint"], []⟩)
    (by decide +kernel) _ ?_
  intro r past next e lim row hn hm hr
  obtain ⟨-, hvl, he⟩ := means_fixed hm (n := 3) (k := 0) (by rw [hn]; decide)
  replace hvl := hvl.resolve_right fun h => absurd h.1 (by omega)
  obtain ⟨a, a1, a2⟩ := int_total hr (n := "geono") 0 rfl (by decide +kernel)
  obtain ⟨b, b1, b2⟩ := real_total (num := num) hr (n := "th") 1 rfl (by decide +kernel)
  refine ⟨(a, at32 num b), by unfold thickRow; rw [a1, b1]; rfl, ?_⟩
  rintro ⟨x, y⟩ ⟨p, q, u, v, h1, h2, h3⟩
  rw [he, h1] at a2 b2
  rw [(a2 _ rfl).unique h2, ← b2 _ rfl, h3]

theorem load_gbeamg (j : Job none sk e0 f outs names pl s h0 lev dt ix)
    (hc : Converted outs names pl s h0 lev dt ix h) :
    ∃ o, table h (pl.path s) "GBEAMG" (beamRow num) = .ok o ∧
      (recordsOf "GBEAMG" f = [] → o = none) ∧
      ∀ bs, bs ≠ [] → List.Forall₂ (IsBeam num) (recordsOf "GBEAMG" f) bs → o = some bs := by
  refine load_table j hc (l := ⟨"GBEAMG", [colI "geono", colF "void", colF "area", colF "ix",
    colF "iy", colF "iz", colF "iyz", colF "wxmin", colF "wymin", colF "wzmin", colF "shary",
    colF "sharz", colF "shceny", colF "shcenz", colF "sy", colF "sz"], []⟩)
    (by decide +kernel) _ ?_
  intro r past next e lim row hn hm hr
  obtain ⟨-, -, he⟩ := means_fixed hm (n := 16) (k := 8) (by rw [hn]; decide)
  obtain ⟨a, a1, a2⟩ := int_total hr (n := "geono") 0 rfl (by decide +kernel)
  have hcols : ∃ ys : List PyF, ys.length = 15 ∧
      beamCols.mapM (real num (cell ((⟨"GBEAMG", [colI "geono", colF "void", colF "area", colF "ix",
        colF "iy", colF "iz", colF "iyz", colF "wxmin", colF "wymin", colF "wzmin", colF "shary",
        colF "sharz", colF "shceny", colF "shcenz", colF "sy", colF "sz"], []⟩ : Layout).cols ++
        limitCols []) row)) = .ok (ys.map (at32 num)) ∧
      ∀ i, i < 15 → ∀ y, e.row[i + 1]? = some (.sc (.num y)) → ys[i]? = some y := by
    obtain ⟨x1, p1, q1⟩ := real_total (num := num) hr (n := "void") 1 rfl (by decide +kernel)
    obtain ⟨x2, p2, q2⟩ := real_total (num := num) hr (n := "area") 2 rfl (by decide +kernel)
    obtain ⟨x3, p3, q3⟩ := real_total (num := num) hr (n := "ix") 3 rfl (by decide +kernel)
    obtain ⟨x4, p4, q4⟩ := real_total (num := num) hr (n := "iy") 4 rfl (by decide +kernel)
    obtain ⟨x5, p5, q5⟩ := real_total (num := num) hr (n := "iz") 5 rfl (by decide +kernel)
    obtain ⟨x6, p6, q6⟩ := real_total (num := num) hr (n := "iyz") 6 rfl (by decide +kernel)
    obtain ⟨x7, p7, q7⟩ := real_total (num := num) hr (n := "wxmin") 7 rfl (by decide +kernel)
    obtain ⟨x8, p8, q8⟩ := real_total (num := num) hr (n := "wymin") 8 rfl (by decide +kernel)
    obtain ⟨x9, p9, q9⟩ := real_total (num := num) hr (n := "wzmin") 9 rfl (by decide +kernel)
    obtain ⟨x10, p10, q10⟩ := real_total (num := num) hr (n := "shary") 10 rfl (by decide +kernel)
    obtain ⟨x11, p11, q11⟩ := real_total (num := num) hr (n := "sharz") 11 rfl (by decide +kernel)
    obtain ⟨x12, p12, q12⟩ := real_total (num := num) hr (n := "shceny") 12 rfl (by decide +kernel)
    obtain ⟨x13, p13, q13⟩ := real_total (num := num) hr (n := "shcenz") 13 rfl (by decide +kernel)
    obtain ⟨x14, p14, q14⟩ := real_total (num := num) hr (n := "sy") 14 rfl (by decide +kernel)
    obtain ⟨x15, p15, q15⟩ := real_total (num := num) hr (n := "sz") 15 rfl (by decide +kernel)
    refine ⟨[x1, x2, x3, x4, x5, x6, x7, x8, x9, x10, x11, x12, x13, x14, x15], rfl, mapM_ok ?_, ?_⟩
    · exact .cons p1 (.cons p2 (.cons p3 (.cons p4 (.cons p5 (.cons p6 (.cons p7 (.cons p8 (.cons p9
        (.cons p10 (.cons p11 (.cons p12 (.cons p13 (.cons p14 (.cons p15 .nil))))))))))))))
    · intro i hi y hy
      match i, hi with
      | 0, _ => rw [q1 y hy]; rfl
      | 1, _ => rw [q2 y hy]; rfl
      | 2, _ => rw [q3 y hy]; rfl
      | 3, _ => rw [q4 y hy]; rfl
      | 4, _ => rw [q5 y hy]; rfl
      | 5, _ => rw [q6 y hy]; rfl
      | 6, _ => rw [q7 y hy]; rfl
      | 7, _ => rw [q8 y hy]; rfl
      | 8, _ => rw [q9 y hy]; rfl
      | 9, _ => rw [q10 y hy]; rfl
      | 10, _ => rw [q11 y hy]; rfl
      | 11, _ => rw [q12 y hy]; rfl
      | 12, _ => rw [q13 y hy]; rfl
      | 13, _ => rw [q14 y hy]; rfl
      | 14, _ => rw [q15 y hy]; rfl
  obtain ⟨ys, hlen, h1, h2⟩ := hcols
  refine ⟨(a, ys.map (at32 num)), by unfold beamRow; rw [a1, h1]; rfl, ?_⟩
  rintro ⟨x, y⟩ ⟨p, q, u, v, h3, h4, h5⟩
  obtain ⟨props, hprops⟩ : ∃ props, props = fit 15 (q :: u :: v :: r.vals) :=
    ⟨_, rfl⟩
  have hpl : props.length = 15 := by rw [hprops]; simp [fit]
  have hfit : fit 16 (r.head ++ r.vals) = p :: props := by
    rw [h3, hprops]
    unfold fit
    rw [List.replicate_succ' (n := 15)]
    show (p :: (q :: u :: v :: r.vals ++ (_ ++ _))).take 16 = _
    rw [List.take_succ_cons, ← List.append_assoc, List.take_append_of_le_length (by simp)]
  rw [he, hfit] at a2 h2
  have : ys = props := by
    apply List.ext_getElem? fun i => ?_
    by_cases hi : i < 15
    · have hi' : i < props.length := by omega
      rw [List.getElem?_eq_getElem hi']
      refine h2 i hi _ (numbers_get ?_)
      rw [List.getElem?_cons_succ]
      exact List.getElem?_eq_getElem hi'
    · rw [List.getElem?_eq_none (by omega), List.getElem?_eq_none (by omega)]
  rw [(a2 p rfl).unique h4, this, hprops]
  dsimp only at h5
  rw [h5]

theorem load_tran (j : Job none sk e0 f outs names pl s h0 lev dt ix)
    (hc : Converted outs names pl s h0 lev dt ix h) {name : String}
    (hname : name ∈ ["RSUPTRAN", "HSUPTRAN"]) :
    ∃ o, table h (pl.path s) name (tranRow num) = .ok o ∧ (recordsOf name f = [] → o = none) ∧
      ∀ bs, bs ≠ [] → List.Forall₂ (IsTran num) (recordsOf name f) bs → o = some bs := by
  have hl : tranLayout name ∈ layouts := by
    have : ∀ n ∈ ["RSUPTRAN", "HSUPTRAN"], tranLayout n ∈ layouts := by decide +kernel
    exact this _ hname
  refine load_table j hc hl _ ?_
  intro r past next e lim row hn hm hr
  obtain ⟨p, q, u, v, i, k, t, hh, hk, ⟨rows, r1, r2, r3, r4⟩, he⟩ := means_tran hm (by rw [hn]; exact hname)
  obtain ⟨a, a1, -⟩ := int_total hr (n := "itref") 1 rfl (by rfl)
  obtain ⟨m, m1, m2, m3, m4⟩ := mat_total (num := num) hr (n := "t") (a := 4) (b := 4) 2 rfl (by rfl)
  have hak : a = k := by
    obtain ⟨cells, hs, rfl⟩ := hr
    rw [he] at hs
    obtain ⟨x, hx, hst⟩ := storedRow_get hs (i := 1) rfl rfl
    cases hst with
    | sc hst => cases hst with
      | intInt _ =>
        have := cell_idx (cols := (tranLayout name).cols ++ limitCols (tranLayout name).arrs)
          (row := cells ++ lim) (n := "itref") (i := 1) rfl (by simp [tranLayout])
          (by rw [List.getElem?_append_left (List.getElem?_eq_some_iff.mp hx).1]; exact hx)
        unfold int at a1
        rw [this] at a1
        cases a1
        rfl
  have hrm : rows = m := m4 rows (by rw [he]; simp [r4])
  subst hrm
  obtain ⟨w1, w2, w3, w4, rfl⟩ : ∃ a b c d, rows = [a, b, c, d] := by
    match rows, r1 with
    | [a, b, c, d], _ => exact ⟨a, b, c, d, rfl⟩
  have four : ∀ w : List PyF, w.length = 4 → ∃ a b c d, w = [a, b, c, d] := by
    intro w hw
    match w, hw with
    | [a, b, c, d], _ => exact ⟨a, b, c, d, rfl⟩
  obtain ⟨a11, a12, a13, a14, rfl⟩ := four w1 (r2 w1 (by simp))
  obtain ⟨a21, a22, a23, a24, rfl⟩ := four w2 (r2 w2 (by simp))
  obtain ⟨a31, a32, a33, a34, rfl⟩ := four w3 (r2 w3 (by simp))
  obtain ⟨a41, a42, a43, a44, rfl⟩ := four w4 (r2 w4 (by simp))
  refine ⟨⟨k, !![at32 num a11, at32 num a12, at32 num a13, at32 num a14; at32 num a21, at32 num a22, at32 num a23, at32 num a24;
      at32 num a31, at32 num a32, at32 num a33, at32 num a34; at32 num a41, at32 num a42, at32 num a43, at32 num a44]⟩, ?_, ?_⟩
  · unfold tranRow
    obtain ⟨x, x1, x2⟩ := bind_ok m3
    rw [a1, hak, x1]
    change (asMat4 num x >>= fun t => _) = _
    unfold asMat4
    rw [x2]
    rfl
  · rintro ⟨x, y⟩ ⟨p', q', u', v', h1, h2, h3⟩
    rw [hh] at h1
    cases h1
    obtain rfl := hk.unique h2
    congr 1
    rw [← r3] at h3
    ext i j
    have := h3 i j
    fin_cases i <;> fin_cases j <;> simpa using this

theorem load_hierarch (j : Job none sk e0 f outs names pl s h0 lev dt ix)
    (hc : Converted outs names pl s h0 lev dt ix h) :
    ∃ o, table h (pl.path s) "HIERARCH" hierRow = .ok o ∧
      (recordsOf "HIERARCH" f = [] → o = none) ∧
      ∀ bs, bs ≠ [] → List.Forall₂ IsHier (recordsOf "HIERARCH" f) bs → o = some bs := by
  refine load_table j hc (l := ⟨"HIERARCH", [colI "nfield", colI "ihref", colI "iselty",
    colI "indsel", colI "islevl", colI "itref", colI "ihpref", colI "nsub"], [arrI "ihsref"]⟩)
    (by decide +kernel) _ ?_
  intro r past next e lim row hn hm hr
  obtain ⟨p, q, u, v, ihs, hvl, he⟩ := means_hierarch hm (by rw [hn]; decide)
  obtain ⟨a, a1, a2⟩ := int_total hr (n := "ihref") 1 rfl (by decide +kernel)
  obtain ⟨b, b1, b2⟩ := int_total hr (n := "iselty") 2 rfl (by decide +kernel)
  obtain ⟨c, c1, c2⟩ := int_total hr (n := "indsel") 3 rfl (by decide +kernel)
  obtain ⟨d, d1, d2⟩ := int_total hr (n := "islevl") 4 rfl (by decide +kernel)
  obtain ⟨e', e1, e2⟩ := int_total hr (n := "itref") 5 rfl (by decide +kernel)
  obtain ⟨g, g1, g2⟩ := int_total hr (n := "ihpref") 6 rfl (by decide +kernel)
  refine ⟨⟨a, b, c, d, e', g⟩, by unfold hierRow; rw [a1, b1, c1, d1, e1, g1]; rfl, ?_⟩
  rintro ⟨_, _, _, _, _, _⟩ ⟨p', q', u', v', x', y', z', w', h1, ⟨more, h0⟩, h2, h3, h4, h5, h6, h7⟩
  rw [hvl] at h0
  cases h0
  rw [he, h1] at a2 b2 c2 d2 e2 g2
  rw [(a2 _ rfl).unique h2, (b2 _ rfl).unique h3, (c2 _ rfl).unique h4, (d2 _ rfl).unique h5,
    (e2 _ rfl).unique h6, (g2 _ rfl).unique h7]

end

end Verif.Data.Load
