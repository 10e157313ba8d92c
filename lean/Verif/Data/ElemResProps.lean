import Verif.Data.ElemResSpec
import Verif.Data.ElemProps
import Verif.Data.ResProps
/-!
# Element results (C50)
-/

namespace Verif.Data
open Verif
open Verif.Seq (Str)

variable {K V : Type}

/-! ## the results of an element -/

section process
variable [Field K] [AddCommGroup V] [Module K V]

theorem row_flat_length {m : Nat} {f : Nat → Nat → V} {n : Nat} {r : List V}
    (h : r ∈ (List.range n).map fun i => (List.range 2).flatMap fun s => (List.range m).map fun c => f (2 * i + s) c) :
    r.length = 2 * m := by
  obtain ⟨i, _, rfl⟩ := List.mem_map.mp h
  exact two_sides_length m fun s c => f (2 * i + s) c

/-- The results of an element at its nodes: one row for each node.  The record must have the right
number of values. -/
theorem processElem_nodes (s3 : K) {restype : String} {t : Int} {dims : List Nat} {n : Nat}
    (hdim : dimsOf restype t = some dims) (hn : nodesOf t = some n) (d : List V) :
    (valuesOf t = some d.length → ∃ b, processElem s3 t restype "nodes" d = .ok (some b) ∧
      b.dims = dims ∧ b.rows.length = n ∧ ∀ r ∈ b.rows, r.length = dims.prod) ∧
    (valuesOf t ≠ some d.length → processElem s3 t restype "nodes" d = .error .valueError) := by
  have hcases : (restype = "beamforce" ∧ (t = 15 ∨ t = 23) ∧ dims = [6]) ∨
      (restype = "generalstress" ∧ ((t = 24 ∨ t = 25) ∧ dims = [2, 3] ∨ (t = 26 ∨ t = 28) ∧ dims = [2, 5])) ∨
      (restype = "decomposedstress" ∧
        ((t = 24 ∨ t = 25) ∧ dims = [6] ∨ (t = 26 ∨ t = 28) ∧ dims = [8])) := by
    unfold dimsOf at hdim
    split at hdim <;> simp_all
  have hthick : ∀ {n : Nat} {x : List (List K)} {restype dims}, x.length = n →
      (restype = "generalstress" ∧ dims = [2, 5] ∨ restype = "decomposedstress" ∧ dims = [8]) → ∀ k,
      (2 * k * 5 = d.length → ∃ b, processThick s3 k x restype "nodes" d = .ok (some b) ∧
      b.dims = dims ∧ b.rows.length = n ∧ ∀ r ∈ b.rows, r.length = dims.prod) ∧
      (2 * k * 5 ≠ d.length → processThick s3 k x restype "nodes" d = .error .valueError) := by
    rintro n x restype dims rfl hr k
    constructor
    · intro hl
      unfold processThick
      rw [if_pos hl.symm]
      dsimp only
      rw [if_neg (by decide), if_pos rfl]
      rcases hr with ⟨rfl, rfl⟩ | ⟨rfl, rfl⟩
      · rw [if_neg (by decide)]
        refine ⟨_, rfl, rfl, by simp, ?_⟩
        intro r hr
        obtain ⟨i, _, rfl⟩ := List.mem_map.mp hr
        exact two_sides_length 5 _
      · rw [if_pos rfl]
        refine ⟨_, rfl, rfl, by simp, ?_⟩
        intro r hr
        obtain ⟨i, _, rfl⟩ := List.mem_map.mp hr
        simp
    · intro hl
      unfold processThick
      rw [if_neg (fun h => hl h.symm)]
  have hthin : ∀ {n : Nat} {idx : List Nat} {restype dims}, idx.length / 2 = n →
      (restype = "generalstress" ∧ dims = [2, 3] ∨ restype = "decomposedstress" ∧ dims = [6]) → ∀ k,
      (3 * k = d.length → ∃ b, processThin K k idx restype d = .ok (some b) ∧
      b.dims = dims ∧ b.rows.length = n ∧ ∀ r ∈ b.rows, r.length = dims.prod) ∧
      (3 * k ≠ d.length → processThin K k idx restype d = .error .valueError) := by
    rintro n idx restype dims rfl hr k
    constructor
    · intro hl
      unfold processThin
      rw [if_pos hl.symm]
      dsimp only
      rcases hr with ⟨rfl, rfl⟩ | ⟨rfl, rfl⟩
      · rw [if_neg (by decide)]
        refine ⟨_, rfl, rfl, by simp, ?_⟩
        intro r hr
        obtain ⟨i, _, rfl⟩ := List.mem_map.mp hr
        exact two_sides_length 3 _
      · rw [if_pos rfl]
        refine ⟨_, rfl, rfl, by simp [decomposeThin], ?_⟩
        intro r hr
        unfold decomposeThin at hr
        obtain ⟨i, _, rfl⟩ := List.mem_map.mp hr
        simp
    · intro hl
      unfold processThin
      rw [if_neg (fun h => hl h.symm)]
  have opt : ∀ a b : Nat, (some a = some b) = (a = b) := by simp
  rcases hcases with ⟨rfl, rfl | rfl, rfl⟩ | ⟨rfl, ⟨rfl | rfl, rfl⟩ | ⟨rfl | rfl, rfl⟩⟩ |
    ⟨rfl, ⟨rfl | rfl, rfl⟩ | ⟨rfl | rfl, rfl⟩⟩
  · cases hn
    show (some 18 = some d.length → _) ∧ (some 18 ≠ some d.length → process15 d = _)
    unfold process15
    simp only [ne_eq, opt]
    constructor
    · intro hl
      refine ⟨_, if_pos hl.symm, rfl, rfl, ?_⟩
      intro r hr
      obtain ⟨i, _, rfl⟩ := List.mem_map.mp hr
      simp
    · intro hl
      rw [if_neg fun h => hl h.symm]
  · cases hn
    show (some 12 = some d.length → _) ∧ (some 12 ≠ some d.length → process23 s3 "nodes" d = _)
    simp only [ne_eq, opt]
    constructor
    · intro hl
      refine ⟨⟨[6], (List.range 3).map fun i => (List.range 6).map fun k =>
        sumTo 2 fun p => at2 (xbm3 s3) i p • at1 d (6 * p + k)⟩, ?_, rfl, by simp, ?_⟩
      · show process23 s3 "nodes" d = _
        unfold process23
        rw [if_pos hl.symm, if_pos rfl]
      intro r hr
      obtain ⟨i, _, rfl⟩ := List.mem_map.mp hr
      simp
    · intro hl
      unfold process23
      rw [if_neg fun h => hl h.symm]
  · cases hn
    have := hthin (n := 4) (idx := idxquad) rfl (.inl ⟨rfl, rfl⟩) 10
    rw [ne_eq, ← opt] at this
    exact this
  · cases hn
    have := hthin (n := 3) (idx := idxtri) rfl (.inl ⟨rfl, rfl⟩) 8
    rw [ne_eq, ← opt] at this
    exact this
  · cases hn
    have := hthick (n := 6) (x := xtri) rfl (.inl ⟨rfl, rfl⟩) 3
    rw [ne_eq, ← opt] at this
    exact this
  · cases hn
    have := hthick (n := 8) (x := xquad s3) rfl (.inl ⟨rfl, rfl⟩) 4
    rw [ne_eq, ← opt] at this
    exact this
  · cases hn
    have := hthin (n := 4) (idx := idxquad) rfl (.inr ⟨rfl, rfl⟩) 10
    rw [ne_eq, ← opt] at this
    exact this
  · cases hn
    have := hthin (n := 3) (idx := idxtri) rfl (.inr ⟨rfl, rfl⟩) 8
    rw [ne_eq, ← opt] at this
    exact this
  · cases hn
    have := hthick (n := 6) (x := xtri) rfl (.inr ⟨rfl, rfl⟩) 3
    rw [ne_eq, ← opt] at this
    exact this
  · cases hn
    have := hthick (n := 8) (x := xquad s3) rfl (.inr ⟨rfl, rfl⟩) 4
    rw [ne_eq, ← opt] at this
    exact this

/-! ## all elements -/

theorem concatBlocks_ok {bs : List (Block V)} {dims : List Nat} (hne : bs ≠ [])
    (h : ∀ b ∈ bs, b.dims = dims) :
    concatBlocks (bs.map some) = .ok ⟨(bs.flatMap Block.rows).length :: dims, (bs.flatMap Block.rows).flatten⟩ := by
  have e : ∀ f : Option (Block V) → List (List V), (∀ b, f (some b) = b.rows) →
      (bs.map some).flatMap f = bs.flatMap Block.rows := by
    intro f hf
    rw [List.flatMap_map]
    exact congrArg (fun g => bs.flatMap g) (funext hf)
  match bs, hne with
  | b :: rest, _ =>
    have hb := h b List.mem_cons_self
    unfold concatBlocks
    rw [List.map_cons]
    dsimp only
    rw [if_pos]
    · rw [List.map_cons] at e
      rw [e _ fun _ => rfl, hb]
    · rw [List.all_map, List.all_eq_true]
      intro b' hb'
      simp [h b' (List.mem_cons_of_mem _ hb'), hb]

theorem concatBlocks_mixed {bs : List (Block V)} {b b' : Block V} (hb : b ∈ bs) (hb' : b' ∈ bs)
    (h : b.dims ≠ b'.dims) : concatBlocks (bs.map some) = .error .valueError := by
  match bs with
  | [] => simp at hb
  | a :: rest =>
    unfold concatBlocks
    rw [List.map_cons]
    dsimp only
    rw [if_neg]
    intro hall
    rw [List.all_map, List.all_eq_true] at hall
    have key : ∀ c ∈ a :: rest, c.dims = a.dims := by
      intro c hc
      rcases List.mem_cons.mp hc with rfl | hc
      · rfl
      · simpa using hall c hc
    exact h ((key b hb).trans (key b' hb').symm)

end process

theorem filter_kept {α β : Type} {R : α → β → Prop} {P : α → Prop} {cond : β → Bool} {as ks : List α}
    {bs : List β} (h : List.Forall₂ R as bs) (hk : Kept P as ks)
    (hc : ∀ a b, R a b → (cond b = true ↔ P a)) : List.Forall₂ R ks (bs.filter cond) := by
  induction hk generalizing bs with
  | nil => cases h; exact .nil
  | keep hp _ ih =>
    cases h with
    | cons h t =>
      rw [List.filter_cons_of_pos ((hc _ _ h).mpr hp)]
      exact .cons h (ih t)
  | drop hp _ ih =>
    cases h with
    | cons h t =>
      rw [List.filter_cons_of_neg (fun hb => hp ((hc _ _ h).mp hb))]
      exact ih t

theorem elemResTable_ok {d : Struc K} (ho : d.isOpen = true) {restype kind : String}
    {t : List ElemRes × List K} (h : ElemTable d restype (some t) kind) :
    elemResTable d restype = .ok (t.1, t.2, kind) := by
  have : ∀ o, ElemTable d restype o kind → o = some t → elemResTable d restype = .ok (t.1, t.2, kind) := by
    intro o h e
    unfold elemResTable need
    rw [ho]
    cases h
    · rw [if_pos rfl, e]; rfl
    · rw [if_neg (by decide), if_pos (.inl rfl), e]; rfl
    · rw [if_neg (by decide), if_pos (.inr rfl), e]; rfl
  exact this _ h rfl

theorem elemTable_restype {d : Struc K} {restype kind : String} {t} (h : ElemTable d restype t kind) :
    restype = "beamforce" ∨ restype = "generalstress" ∨ restype = "decomposedstress" := by
  cases h <;> simp

theorem asPairs_stored (vs : List (K × K)) : asPairs (vs.flatMap storedComplex) = .ok vs := by
  induction vs with
  | nil => rfl
  | cons v vs ih =>
    rw [List.flatMap_cons]
    show asPairs (v.1 :: v.2 :: vs.flatMap storedComplex) = _
    rw [asPairs, ih]; rfl

theorem real_stored (vs : List K) : vs.flatMap storedReal = vs := by
  induction vs with
  | nil => rfl
  | cons v vs ih => rw [List.flatMap_cons, ih]; rfl

section main
variable [Field K] [AddCommGroup V] [Module K V]

theorem mapM_blocks {s3 : K} {restype pos : String} {conv : List K → Except Err (List V)}
    {stored : V → List K} (hconv : ∀ vs, conv (vs.flatMap stored) = .ok vs) {arr : List K}
    {kept : List (ElemRec V)} {rows : List ElemRes} {bs : List (Option (Block V))}
    (hr : List.Forall₂ (fun (e : ElemRec V) (r : ElemRes) => r.ires = e.ires ∧ r.iielno = e.elem ∧
      r.ir = e.typ ∧ Part arr r.start r.stop (e.values.flatMap stored)) kept rows)
    (hb : List.Forall₂ (fun (e : ElemRec V) b => processElem s3 e.typ restype pos e.values = .ok b)
      kept bs) :
    (rows.mapM fun r => conv (npSlice arr r.start r.stop) >>= fun d => processElem s3 r.ir restype pos d)
      = .ok bs := by
  apply mapM_ok_iff.mpr
  induction hr generalizing bs with
  | nil => cases hb; exact .nil
  | cons h _ ih =>
    cases hb with
    | cons hb tb =>
      refine .cons ?_ (ih tb)
      obtain ⟨_, _, h3, a, b, h4, h5, _, _, h6⟩ := h
      rw [h4, h5, npSlice_nat, h6, hconv, h3]
      exact hb

theorem splitCases_ok {restype : String} {n N : Nat} {dims : List Nat} {rows : List (List V)}
    (hn : 0 < n) (hrows : rows.length = n * N) (hlen : ∀ r ∈ rows, r.length = dims.prod)
    (hpos : 0 < dims.prod)
    (hd : restype = "generalstress" ∧ (∃ k, dims = [2, k]) ∨ restype ≠ "generalstress" ∧ ∃ k, dims = [k]) :
    splitCases restype n ⟨rows.length :: dims, rows.flatten⟩ =
      .ok ⟨(if n = 1 then N :: dims else n :: N :: dims), rows.flatten⟩ := by
  have hfl : rows.flatten.length = n * N * dims.prod := by
    rw [length_flatten_const hlen, hrows]
  have hmod : rows.flatten.length % (n * dims.prod) = 0 := by
    rw [hfl, Nat.mul_right_comm]; exact Nat.mul_mod_right _ _
  have hdiv : rows.flatten.length / (n * dims.prod) = N := by
    rw [hfl, Nat.mul_right_comm]
    exact Nat.mul_div_cancel_left _ (Nat.mul_pos hn hpos)
  unfold splitCases
  by_cases h1 : n = 1
  · subst h1
    rw [if_neg (by decide), if_pos rfl, hrows, Nat.one_mul]
  · rw [if_pos (by omega), if_neg h1]
    rcases hd with ⟨rfl, k, rfl⟩ | ⟨hr, k, rfl⟩
    · rw [if_pos rfl]
      show (if rows.flatten.length % (n * [2, k].prod) = 0 then _ else _) = _
      rw [if_pos hmod, hdiv]
    · rw [if_neg hr]
      show (if rows.flatten.length % (n * [k].prod) = 0 then _ else _) = _
      rw [if_pos hmod, hdiv]

theorem forall₂_flatten {α β : Type} {R : α → β → Prop} {as : List (List α)} {bs : List (List β)}
    (h : List.Forall₂ (List.Forall₂ R) as bs) : List.Forall₂ R as.flatten bs.flatten := by
  induction h with
  | nil => exact .nil
  | cons h _ ih => rw [List.flatten_cons, List.flatten_cons]; exact List.rel_append h ih

/-- the blocks of one result case -/
theorem blocks_of_case (s3 : K) {restype : String} {dims : List Nat} {m : Mesh K} {es : List Nat}
    {l : List Element} (hl : Elements m es l) (hnodes : ∀ e ∈ l, nodesOf e.typ = some e.nodes.length)
    (hdims : ∀ e ∈ l, dimsOf restype e.typ = some dims) {c : List (ElemRec V)} (hc : LinesUp m es c) :
    ∃ bs, List.Forall₂ (fun (r : ElemRec V) b => processElem s3 r.typ restype "nodes" r.values = .ok (some b))
        c bs ∧
      List.Forall₂ (fun (e : Element) (b : Block V) => b.dims = dims ∧ b.rows.length = e.nodes.length ∧
        ∀ r ∈ b.rows, r.length = dims.prod) l bs := by
  unfold Elements at hl
  unfold LinesUp at hc
  induction hl generalizing c with
  | nil => cases hc; exact ⟨[], .nil, .nil⟩
  | @cons i e es l h _ ih =>
    cases hc with
    | @cons _ r _ c hr hc =>
      obtain ⟨bs, h1, h2⟩ := ih (fun e he => hnodes e (List.mem_cons_of_mem _ he))
        (fun e he => hdims e (List.mem_cons_of_mem _ he)) hc
      obtain ⟨_, hval, e', he', ht⟩ := hr
      rw [h] at he'
      cases he'
      rw [ht] at hval
      obtain ⟨b, hb1, hb2⟩ := (processElem_nodes s3 (hdims e List.mem_cons_self)
        (hnodes e List.mem_cons_self) r.values).1 hval
      exact ⟨b :: bs, .cons (by rw [ht]; exact hb1) h1, .cons hb2 h2⟩

theorem blocks_of_cases (s3 : K) {restype : String} {dims : List Nat} {m : Mesh K} {es : List Nat}
    {l : List Element} (hl : Elements m es l) (hnodes : ∀ e ∈ l, nodesOf e.typ = some e.nodes.length)
    (hdims : ∀ e ∈ l, dimsOf restype e.typ = some dims) {css : List (List (ElemRec V))}
    (hc : ∀ c ∈ css, LinesUp m es c) :
    ∃ bss, List.Forall₂ (List.Forall₂ fun (r : ElemRec V) b =>
        processElem s3 r.typ restype "nodes" r.values = .ok (some b)) css bss ∧
      ∀ bs ∈ bss, List.Forall₂ (fun (e : Element) (b : Block V) => b.dims = dims ∧
        b.rows.length = e.nodes.length ∧ ∀ r ∈ b.rows, r.length = dims.prod) l bs := by
  induction css with
  | nil => exact ⟨[], .nil, by simp⟩
  | cons c css ih =>
    obtain ⟨bss, h1, h2⟩ := ih fun c hc' => hc c (List.mem_cons_of_mem _ hc')
    obtain ⟨bs, h3, h4⟩ := blocks_of_case s3 hl hnodes hdims (hc c List.mem_cons_self)
    refine ⟨bs :: bss, .cons h3 h1, ?_⟩
    intro b hb
    rcases List.mem_cons.mp hb with rfl | hb
    · exact h4
    · exact h2 b hb

theorem rows_length {dims : List Nat} {l : List Element} {bs : List (Block V)}
    (h : List.Forall₂ (fun (e : Element) (b : Block V) => b.dims = dims ∧
        b.rows.length = e.nodes.length ∧ ∀ r ∈ b.rows, r.length = dims.prod) l bs) :
    (bs.flatMap Block.rows).length = (l.flatMap Element.nodes).length ∧
    ∀ b ∈ bs, b.dims = dims ∧ ∀ r ∈ b.rows, r.length = dims.prod := by
  induction h with
  | nil => exact ⟨rfl, by simp⟩
  | cons h _ ih =>
    obtain ⟨h1, h2, h3⟩ := h
    refine ⟨by rw [List.flatMap_cons, List.flatMap_cons, List.length_append, List.length_append, ih.1, h2], ?_⟩
    intro b hb
    rcases List.mem_cons.mp hb with rfl | hb
    · exact ⟨h1, h3⟩
    · exact ih.2 b hb

/-- the array of several result cases -/
theorem collect_ok {s3 : K} {restype : String} {conv : List K → Except Err (List V)}
    {stored : V → List K} (hconv : ∀ vs, conv (vs.flatMap stored) = .ok vs) {arr : List K}
    {m : Mesh K} {es : List Nat} {l : List Element} (hl : Elements m es l) (hne : l ≠ []) {dims : List Nat}
    (hnodes : ∀ e ∈ l, nodesOf e.typ = some e.nodes.length)
    (hdims : ∀ e ∈ l, dimsOf restype e.typ = some dims)
    {css : List (List (ElemRec V))} (hcs : css ≠ []) (hc : ∀ c ∈ css, LinesUp m es c)
    {rows : List ElemRes}
    (hr : List.Forall₂ (fun (e : ElemRec V) (r : ElemRes) => r.ires = e.ires ∧ r.iielno = e.elem ∧
      r.ir = e.typ ∧ Part arr r.start r.stop (e.values.flatMap stored)) css.flatten rows) :
    ∃ bss, List.Forall₂ (List.Forall₂ fun (r : ElemRec V) b =>
        processElem s3 r.typ restype "nodes" r.values = .ok (some b)) css bss ∧
      (∀ bs ∈ bss, List.Forall₂ (fun (e : Element) (b : Block V) => b.dims = dims ∧
        b.rows.length = e.nodes.length ∧ ∀ r ∈ b.rows, r.length = dims.prod) l bs) ∧
      collect s3 restype "nodes" conv arr rows css.length = .ok
        ⟨if css.length = 1 then (l.flatMap Element.nodes).length :: dims
          else css.length :: (l.flatMap Element.nodes).length :: dims,
         (bss.flatten.flatMap Block.rows).flatten⟩ := by
  obtain ⟨bss, h1, h2⟩ := blocks_of_cases s3 hl hnodes hdims hc
  refine ⟨bss, h1, h2, ?_⟩
  have hlen := h1.length_eq
  have hall : ∀ b ∈ bss.flatten, b.dims = dims ∧ ∀ r ∈ b.rows, r.length = dims.prod := by
    intro b hb
    obtain ⟨bs, hbs, hb⟩ := List.mem_flatten.mp hb
    exact (rows_length (h2 bs hbs)).2 b hb
  have hrows : (bss.flatten.flatMap Block.rows).length = css.length * (l.flatMap Element.nodes).length := by
    rw [hlen]
    clear h1 hlen hall
    induction bss with
    | nil => simp
    | cons bs bss ih =>
      rw [List.flatten_cons, List.flatMap_append, List.length_append,
        ih fun b hb => h2 b (List.mem_cons_of_mem _ hb), (rows_length (h2 bs List.mem_cons_self)).1,
        List.length_cons]
      ring
  have hflat := forall₂_flatten h1
  have hbne : bss.flatten ≠ [] := by
    obtain ⟨bs, hbs⟩ := List.exists_mem_of_ne_nil bss (by
      intro h
      rw [h, List.length_nil] at hlen
      exact hcs (List.length_eq_zero_iff.mp hlen))
    have := (h2 bs hbs).length_eq
    intro h
    rw [List.flatten_eq_nil_iff] at h
    rw [h bs hbs, List.length_nil] at this
    exact hne (List.length_eq_zero_iff.mp this)
  obtain ⟨e0, he0⟩ := List.exists_mem_of_ne_nil _ hne
  have hdim0 := hdims e0 he0
  have hdd : (restype = "generalstress" ∧ (∃ k, dims = [2, k]) ∨ restype ≠ "generalstress" ∧ ∃ k, dims = [k]) ∧
      0 < dims.prod := by
    unfold dimsOf at hdim0
    split at hdim0 <;> simp at hdim0 <;> subst hdim0 <;> simp
  unfold collect
  have hm := mapM_blocks (s3 := s3) (restype := restype) (pos := "nodes") hconv hr
    (bs := bss.flatten.map some) (by
      rw [List.forall₂_map_right_iff]
      exact hflat)
  rw [hm, bind_ok, concatBlocks_ok hbne fun b hb => (hall b hb).1, bind_ok]
  refine splitCases_ok (List.length_pos_iff.mpr hcs) hrows ?_ hdd.2 hdd.1
  intro r hr
  obtain ⟨b, hb, hr⟩ := List.mem_flatMap.mp hr
  exact (hall b hb).2 r hr

/-- the rows that are processed -/
theorem elementResults_head {d : Struc K} {m : Mesh K} (hd : Holds d m) (hv : Valid m) {sets : SetsArg}
    (hs : NoSets sets ∨ HoldsSets d m) {restype kind : String} {es : List Nat}
    (hc : Chosen m sets (some kind) es) {stored : V → List K} {recs kept : List (ElemRec V)}
    (hres : HoldsElemRes d restype kind stored recs) {refs : List ResRef} (hrefs : d.rdresref = some refs)
    {run : Int} {rescases : CasesArg} {flag : Int}
    (hflag : ∀ r, Wanted refs run rescases r → r.icompl = flag) {cs : List Int}
    (hcs : CaseNumbers refs run rescases cs) (hne : cs ≠ [])
    (hk : Kept (Concerns refs run rescases es) recs kept) (s3 : K) (pos : String) :
    ∃ arr rows, List.Forall₂ (fun (e : ElemRec V) (r : ElemRes) => r.ires = e.ires ∧ r.iielno = e.elem ∧
        r.ir = e.typ ∧ Part arr r.start r.stop (e.values.flatMap stored)) kept rows ∧
      getElementResults s3 d restype pos run rescases sets =
        if flag ≠ 0 then (collect s3 restype pos asPairs arr rows cs.length).map .complex
        else (collect s3 restype pos Except.ok arr rows cs.length).map .real := by
  obtain ⟨rows, arr, htab, hrec⟩ := hres
  obtain ⟨c0, hc0⟩ := List.exists_mem_of_ne_nil _ hne
  obtain ⟨r0, hw0, _⟩ := (hcs.2 c0).mp hc0
  have hother : rescases ≠ .other := by
    rintro rfl
    obtain ⟨_, _, h | h | ⟨_, h, _⟩⟩ := hw0 <;> cases h
  obtain ⟨w, hw1, _, hw2⟩ := resRefs_ok (run := run) hd.isOpen hrefs hother
  have hwne : w ≠ [] := List.ne_nil_of_mem ((hw2 r0).mpr hw0)
  have hfl : complexFlag (w.map ResRef.icompl) = .ok flag :=
    complexFlag_ok (by simpa using hwne) (by
      intro f hf
      obtain ⟨r, hr, rfl⟩ := List.mem_map.mp hf
      exact hflag r ((hw2 r).mp hr))
  have hnums := elementNumbers_ok hd hv hs hc
  have hI : ∀ c, c ∈ npUnique (w.map ResRef.ires) ↔ ∃ r, Wanted refs run rescases r ∧ r.ires = c := by
    intro c
    rw [mem_npUnique, List.mem_map]
    constructor
    · rintro ⟨r, h1, h2⟩; exact ⟨r, (hw2 r).mp h1, h2⟩
    · rintro ⟨r, h1, h2⟩; exact ⟨r, (hw2 r).mpr h1, h2⟩
  have hlen : (npUnique (w.map ResRef.ires)).length = cs.length := by
    refine List.Perm.length_eq ((List.perm_ext_iff_of_nodup ?_ hcs.1).mpr fun c => ?_)
    · exact (npUnique_sorted _).imp fun h => ne_of_lt h
    · rw [hI, hcs.2]
  refine ⟨arr, _, filter_kept (cond := fun r => decide (r.ires ∈ npUnique (w.map ResRef.ires)) &&
    decide (r.iielno ∈ es.map fun i : Nat => ((i + 1 : Nat) : Int))) hrec hk ?_, ?_⟩
  · rintro e r ⟨h1, h2, _⟩
    rw [Bool.and_eq_true, decide_eq_true_eq, decide_eq_true_eq, hI, h1, h2, List.mem_map]
    unfold Concerns
    constructor
    · rintro ⟨h3, i, hi, h4⟩
      exact ⟨h3, i, hi, by omega⟩
    · rintro ⟨h3, i, hi, h4⟩
      exact ⟨h3, i, hi, by omega⟩
  · unfold getElementResults
    rw [elemResTable_ok hd.isOpen htab, bind_ok]
    dsimp only
    rw [hw1, bind_ok, hfl, bind_ok, hnums, bind_ok, hlen]

/-- **C50** (real results; partial: the results of the selected elements must have the same axes, see
`mixed_shells`): the array has for each wanted result case and each selected element, in
order, the rows obtained from that element's own record: one row for each node of the element.  For
a single case the axis of cases is left out; the entries are given row by row. -/
theorem element_results_real_partial {d : Struc K} {m : Mesh K} (hd : Holds d m) (hv : Valid m) {sets : SetsArg}
    (hs : NoSets sets ∨ HoldsSets d m) {restype kind : String} {es : List Nat}
    (hc : Chosen m sets (some kind) es) {l : List Element} (hl : Elements m es l) (hne : l ≠ [])
    {dims : List Nat} (hnodes : ∀ e ∈ l, nodesOf e.typ = some e.nodes.length)
    (hdims : ∀ e ∈ l, dimsOf restype e.typ = some dims) {recs : List (ElemRec K)}
    (hres : HoldsElemRes d restype kind storedReal recs) {refs : List ResRef}
    (hrefs : d.rdresref = some refs) {run : Int} {rescases : CasesArg}
    (hflag : ∀ r, Wanted refs run rescases r → r.icompl = 0) {cs : List Int}
    (hcs : CaseNumbers refs run rescases cs) (hcne : cs ≠ []) {css : List (List (ElemRec K))}
    (hk : Kept (Concerns refs run rescases es) recs css.flatten) (hcl : css.length = cs.length)
    (hline : ∀ c ∈ css, LinesUp m es c) (s3 : K) :
    ∃ bss, List.Forall₂ (List.Forall₂ fun (r : ElemRec K) b =>
        processElem s3 r.typ restype "nodes" r.values = .ok (some b)) css bss ∧
      (∀ bs ∈ bss, List.Forall₂ (fun (e : Element) (b : Block K) => b.dims = dims ∧
        b.rows.length = e.nodes.length ∧ ∀ r ∈ b.rows, r.length = dims.prod) l bs) ∧
      getElementResults s3 d restype "nodes" run rescases sets = .ok (.real
        ⟨if cs.length = 1 then (l.flatMap Element.nodes).length :: dims
          else cs.length :: (l.flatMap Element.nodes).length :: dims,
         (bss.flatten.flatMap Block.rows).flatten⟩) := by
  obtain ⟨arr, rows, h1, h2⟩ := elementResults_head hd hv hs hc hres hrefs hflag hcs hcne hk s3 "nodes"
  have hne' : css ≠ [] := by
    rintro rfl
    exact hcne (List.length_eq_zero_iff.mp hcl.symm)
  obtain ⟨bss, h3, h4, h5⟩ := collect_ok (s3 := s3) (conv := Except.ok) (stored := storedReal)
    (fun vs => by rw [real_stored]) hl hne hnodes hdims hne' hline h1
  refine ⟨bss, h3, h4, ?_⟩
  rw [h2, if_neg (by simp), ← hcl, h5]; rfl

/-- **C50** (complex results; partial in the same way) -/
theorem element_results_complex_partial {d : Struc K} {m : Mesh K} (hd : Holds d m) (hv : Valid m) {sets : SetsArg}
    (hs : NoSets sets ∨ HoldsSets d m) {restype kind : String} {es : List Nat}
    (hc : Chosen m sets (some kind) es) {l : List Element} (hl : Elements m es l) (hne : l ≠ [])
    {dims : List Nat} (hnodes : ∀ e ∈ l, nodesOf e.typ = some e.nodes.length)
    (hdims : ∀ e ∈ l, dimsOf restype e.typ = some dims) {recs : List (ElemRec (K × K))}
    (hres : HoldsElemRes d restype kind storedComplex recs) {refs : List ResRef}
    (hrefs : d.rdresref = some refs) {run : Int} {rescases : CasesArg} {flag : Int} (hf : flag ≠ 0)
    (hflag : ∀ r, Wanted refs run rescases r → r.icompl = flag) {cs : List Int}
    (hcs : CaseNumbers refs run rescases cs) (hcne : cs ≠ []) {css : List (List (ElemRec (K × K)))}
    (hk : Kept (Concerns refs run rescases es) recs css.flatten) (hcl : css.length = cs.length)
    (hline : ∀ c ∈ css, LinesUp m es c) (s3 : K) :
    ∃ bss, List.Forall₂ (List.Forall₂ fun (r : ElemRec (K × K)) b =>
        processElem s3 r.typ restype "nodes" r.values = .ok (some b)) css bss ∧
      (∀ bs ∈ bss, List.Forall₂ (fun (e : Element) (b : Block (K × K)) => b.dims = dims ∧
        b.rows.length = e.nodes.length ∧ ∀ r ∈ b.rows, r.length = dims.prod) l bs) ∧
      getElementResults s3 d restype "nodes" run rescases sets = .ok (.complex
        ⟨if cs.length = 1 then (l.flatMap Element.nodes).length :: dims
          else cs.length :: (l.flatMap Element.nodes).length :: dims,
         (bss.flatten.flatMap Block.rows).flatten⟩) := by
  obtain ⟨arr, rows, h1, h2⟩ := elementResults_head hd hv hs hc hres hrefs hflag hcs hcne hk s3 "nodes"
  have hne' : css ≠ [] := by
    rintro rfl
    exact hcne (List.length_eq_zero_iff.mp hcl.symm)
  obtain ⟨bss, h3, h4, h5⟩ := collect_ok (s3 := s3) (conv := asPairs) (stored := storedComplex)
    asPairs_stored hl hne hnodes hdims hne' hline h1
  refine ⟨bss, h3, h4, ?_⟩
  rw [h2, if_pos hf, ← hcl, h5]; rfl

/-! ## elements without extrapolation -/

theorem part_at1 {d : List V} {a m : Nat} (h : a + m ≤ d.length) :
    ((List.range m).map fun c => at1 d (a + c)) = (d.drop a).take m := by
  apply List.ext_getElem
  · simp; omega
  · intro i h1 h2
    simp only [List.getElem_map, List.getElem_range, List.getElem_take, List.getElem_drop]
    have : i < m := by simpa using h1
    exact at1_of (List.getElem?_eq_getElem (by omega))

theorem thin_rows {npts : Nat} {idx : List Nat} {pts : List (Nat × Nat)}
    (hidx : idx = pts.flatMap fun p => [p.1, p.2]) (hpts : ∀ p ∈ pts, p.1 < npts ∧ p.2 < npts)
    {d : List V} (hd : d.length = 3 * npts) :
    processThin K npts idx "generalstress" d = .ok (some ⟨[2, 3], pts.map fun p =>
      (d.drop (3 * p.1)).take 3 ++ (d.drop (3 * p.2)).take 3⟩) := by
  unfold processThin
  rw [if_pos hd]
  dsimp only
  rw [if_neg (by decide)]
  have hlen : idx.length / 2 = pts.length := by
    rw [hidx, List.length_flatMap]
    simp
  have hget : ∀ (ps : List (Nat × Nat)) (i : Nat) (h : i < ps.length),
      (ps.flatMap fun p => [p.1, p.2]).getD (2 * i) 0 = ps[i].1 ∧
      (ps.flatMap fun p => [p.1, p.2]).getD (2 * i + 1) 0 = ps[i].2 := by
    intro ps
    induction ps with
    | nil => intro i h; simp at h
    | cons p ps ih =>
      intro i h
      match i with
      | 0 => exact ⟨rfl, rfl⟩
      | i + 1 =>
        have := ih i (by simpa using h)
        rw [show 2 * (i + 1) = 2 * i + 2 by ring]
        exact this
  have : (List.range (idx.length / 2)).map (fun i => (List.range 2).flatMap fun s => (List.range 3).map fun c =>
      at1 d (3 * idx.getD (2 * i + s) 0 + c)) = pts.map fun p =>
      (d.drop (3 * p.1)).take 3 ++ (d.drop (3 * p.2)).take 3 := by
    rw [hlen]
    apply List.ext_getElem
    · simp
    · intro i h1 h2
      simp only [List.getElem_map, List.getElem_range]
      have hi : i < pts.length := by simpa using h2
      obtain ⟨e1, e2⟩ := hget pts i hi
      have hb := hpts pts[i] (List.getElem_mem hi)
      have e : ∀ f : Nat → List V, (List.range 2).flatMap f = f 0 ++ f 1 := by
        intro f; simp [List.range_succ]
      rw [e, hidx, Nat.add_zero, e1, e2, part_at1 (by omega), part_at1 (by omega)]
  rw [this]

/-- First order shells: the result points at the nodes, on the lower and on the upper surface.
The 4-node element has 5 points on each surface, the 3-node element has 4. -/
theorem thin_quad_points (s3 : K) (pos : String) {d : List V} (hd : d.length = 30) :
    processElem s3 24 "generalstress" pos d = .ok (some ⟨[2, 3], [(0, 5), (1, 6), (4, 9), (3, 8)].map
      fun p : Nat × Nat => (d.drop (3 * p.1)).take 3 ++ (d.drop (3 * p.2)).take 3⟩) := by
  show processThin K 10 idxquad "generalstress" d = _
  exact thin_rows (pts := [(0, 5), (1, 6), (4, 9), (3, 8)]) (by decide) (by decide) hd

theorem thin_tri_points (s3 : K) (pos : String) {d : List V} (hd : d.length = 24) :
    processElem s3 25 "generalstress" pos d = .ok (some ⟨[2, 3], [(0, 4), (1, 5), (3, 7)].map
      fun p : Nat × Nat => (d.drop (3 * p.1)).take 3 ++ (d.drop (3 * p.2)).take 3⟩) := by
  show processThin K 8 idxtri "generalstress" d = _
  exact thin_rows (pts := [(0, 4), (1, 5), (3, 7)]) (by decide) (by decide) hd

/-- 2-node beams: the first and the last of the three result points -/
theorem beam_points (s3 : K) (restype pos : String) {d : List V} (hd : d.length = 18) :
    processElem s3 15 restype pos d = .ok (some ⟨[6], [d.take 6, d.drop 12]⟩) := by
  show process15 d = _
  unfold process15
  rw [if_pos hd]
  simp only [List.map_cons, List.map_nil]
  rw [part_at1 (by omega), part_at1 (by omega)]
  rw [show 6 * 2 = 12 from rfl, List.take_of_length_le (l := d.drop 12) (by simp; omega)]
  rfl

/-- 3-node beams, values at the result points -/
theorem beam3_points (s3 : K) (restype : String) {pos : String} (hp : pos ≠ "nodes") {d : List V}
    (hd : d.length = 12) :
    processElem s3 23 restype pos d = .ok (some ⟨[6], [d.take 6, d.drop 6]⟩) := by
  show process23 s3 pos d = _
  unfold process23
  rw [if_pos hd, if_neg hp]
  have e : List.range 2 = [0, 1] := rfl
  rw [e]
  simp only [List.map_cons, List.map_nil]
  rw [part_at1 (by omega), part_at1 (by omega)]
  rw [show 6 * 1 = 6 from rfl, List.take_of_length_le (l := d.drop 6) (by simp; omega)]
  rfl

theorem thick_points (s3 : K) (n : Nat) (x : List (List K)) (restype : String) {d : List V}
    (hd : d.length = 2 * n * 5) :
    processThick s3 n x restype "respts" d = .ok (some ⟨[2, 5], (List.range n).map fun p =>
      (d.drop (5 * p)).take 5 ++ (d.drop (5 * (n + p))).take 5⟩) := by
  unfold processThick
  rw [if_pos hd]
  dsimp only
  rw [if_pos rfl]
  congr 3
  apply List.map_congr_left
  intro p hp
  have := List.mem_range.mp hp
  have e : ∀ f : Nat → List V, (List.range 2).flatMap f = f 0 ++ f 1 := by
    intro f; simp [List.range_succ]
  rw [e, part_at1 (by omega), part_at1 (by omega), Nat.zero_mul, Nat.zero_add, Nat.one_mul, Nat.mul_comm p,
    Nat.mul_comm (n + p)]

/-- second order shells, values at the result points: lower side, upper side.  (They are not
decomposed, whatever the type of result.) -/
theorem respts_points (s3 : K) (restype : String) {d : List V} :
    (d.length = 30 → processElem s3 26 restype "respts" d = .ok (some ⟨[2, 5], (List.range 3).map fun p =>
      (d.drop (5 * p)).take 5 ++ (d.drop (5 * (3 + p))).take 5⟩)) ∧
    (d.length = 40 → processElem s3 28 restype "respts" d = .ok (some ⟨[2, 5], (List.range 4).map fun p =>
      (d.drop (5 * p)).take 5 ++ (d.drop (5 * (4 + p))).take 5⟩)) :=
  ⟨fun hd => thick_points s3 3 xtri restype hd, fun hd => thick_points s3 4 (xquad s3) restype hd⟩

/-! ## failures -/

/-- element types without processing -/
theorem unknown_type (s3 : K) {t : Int} (h : nodesOf t = none) (restype pos : String) (d : List V) :
    processElem s3 t restype pos d = .error .keyError := by
  unfold processElem
  have : t ≠ 15 ∧ t ≠ 23 ∧ t ≠ 24 ∧ t ≠ 25 ∧ t ≠ 26 ∧ t ≠ 28 := by
    refine ⟨?_, ?_, ?_, ?_, ?_, ?_⟩ <;> rintro rfl <;> cases h
  obtain ⟨h1, h2, h3, h4, h5, h6⟩ := this
  rw [if_neg h1, if_neg h2, if_neg h3, if_neg h4, if_neg h5, if_neg h6]

/-- second order shells, other positions: no result -/
theorem other_position (s3 : K) (restype : String) {pos : String} (h : pos ≠ "respts") (h' : pos ≠ "nodes")
    {d : List V} :
    (d.length = 30 → processElem s3 26 restype pos d = .ok none) ∧
    (d.length = 40 → processElem s3 28 restype pos d = .ok none) := by
  have : ∀ n x, d.length = 2 * n * 5 → processThick s3 n x restype pos d = .ok none := by
    intro n x hd
    unfold processThick
    rw [if_pos hd]
    dsimp only
    rw [if_neg h, if_neg h']
  exact ⟨this 3 xtri, this 4 (xquad s3)⟩

omit [Field K] [AddCommGroup V] [Module K V] in
theorem concatBlocks_none {bs : List (Option (Block V))} (h : bs = [] ∨ none ∈ bs) :
    concatBlocks bs = .error .valueError := by
  match bs with
  | [] => rfl
  | none :: rest => rfl
  | some b :: rest =>
    have : none ∈ rest := by
      rcases h with h | h
      · cases h
      · simpa using h
    unfold concatBlocks
    dsimp only
    rw [if_neg]
    intro hall
    rw [List.all_eq_true] at hall
    have := hall none this
    simp at this

/-- **C50** (when it fails): no record is concerned, one of them has no result for the position, or
the results of two elements have different axes (first and second order shells together):
`ValueError`. -/
theorem element_results_fail {d : Struc K} {m : Mesh K} (hd : Holds d m) (hv : Valid m) {sets : SetsArg}
    (hs : NoSets sets ∨ HoldsSets d m) {restype kind : String} {es : List Nat}
    (hc : Chosen m sets (some kind) es) {recs kept : List (ElemRec K)}
    (hres : HoldsElemRes d restype kind storedReal recs) {refs : List ResRef}
    (hrefs : d.rdresref = some refs) {run : Int} {rescases : CasesArg}
    (hflag : ∀ r, Wanted refs run rescases r → r.icompl = 0) {cs : List Int}
    (hcs : CaseNumbers refs run rescases cs) (hcne : cs ≠ [])
    (hk : Kept (Concerns refs run rescases es) recs kept) {s3 : K} {pos : String}
    {bs : List (Option (Block K))}
    (hb : List.Forall₂ (fun (e : ElemRec K) b => processElem s3 e.typ restype pos e.values = .ok b) kept bs)
    (hbad : kept = [] ∨ none ∈ bs ∨ ∃ b b', some b ∈ bs ∧ some b' ∈ bs ∧ b.dims ≠ b'.dims) :
    getElementResults s3 d restype pos run rescases sets = .error .valueError := by
  obtain ⟨arr, rows, h1, h2⟩ := elementResults_head hd hv hs hc hres hrefs hflag hcs hcne hk s3 pos
  have hbb : concatBlocks bs = .error .valueError := by
    by_cases hnone : none ∈ bs
    · exact concatBlocks_none (.inr hnone)
    · rcases hbad with rfl | h | ⟨b, b', hb1, hb2, hne⟩
      · cases hb; exact concatBlocks_none (.inl rfl)
      · exact absurd h hnone
      · obtain ⟨bs', rfl⟩ : ∃ bs' : List (Block K), bs = bs'.map some := by
          clear hb hb1 hb2 hne
          induction bs with
          | nil => exact ⟨[], rfl⟩
          | cons b bs ih =>
            obtain ⟨bs', rfl⟩ := ih fun h => hnone (List.mem_cons_of_mem _ h)
            cases b with
            | none => exact absurd List.mem_cons_self hnone
            | some b => exact ⟨b :: bs', rfl⟩
        exact concatBlocks_mixed (by simpa using hb1) (by simpa using hb2) hne
  have hm := mapM_blocks (s3 := s3) (restype := restype) (pos := pos) (conv := Except.ok)
    (stored := storedReal) (fun vs => by rw [real_stored]) h1 hb
  rw [h2, if_neg (by simp)]
  unfold collect
  rw [hm, bind_ok, hbb]
  rfl

/-- **C50** (when it fails): the first record that cannot be processed decides on the exception. -/
theorem element_results_error {d : Struc K} {m : Mesh K} (hd : Holds d m) (hv : Valid m) {sets : SetsArg}
    (hs : NoSets sets ∨ HoldsSets d m) {restype kind : String} {es : List Nat}
    (hc : Chosen m sets (some kind) es) {recs before after : List (ElemRec K)} {bad : ElemRec K}
    (hres : HoldsElemRes d restype kind storedReal recs) {refs : List ResRef}
    (hrefs : d.rdresref = some refs) {run : Int} {rescases : CasesArg}
    (hflag : ∀ r, Wanted refs run rescases r → r.icompl = 0) {cs : List Int}
    (hcs : CaseNumbers refs run rescases cs) (hcne : cs ≠ [])
    (hk : Kept (Concerns refs run rescases es) recs (before ++ bad :: after)) {s3 : K} {pos : String}
    {e : Err} (hb : ∀ r ∈ before, ∃ b, processElem s3 r.typ restype pos r.values = .ok b)
    (he : processElem s3 bad.typ restype pos bad.values = .error e) :
    getElementResults s3 d restype pos run rescases sets = .error e := by
  obtain ⟨arr, rows, h1, h2⟩ := elementResults_head hd hv hs hc hres hrefs hflag hcs hcne hk s3 pos
  have hm : (rows.mapM fun r => (Except.ok (npSlice arr r.start r.stop) : Except Err (List K)) >>= fun d =>
      processElem s3 r.ir restype pos d) = .error e := by
    clear h2 hk
    induction before generalizing rows with
    | nil =>
      cases h1 with
      | cons h t =>
        obtain ⟨_, _, h3, a, b, h4, h5, _, _, h6⟩ := h
        rw [List.mapM_cons, bind_ok, h4, h5, npSlice_nat, h6, real_stored, h3, he]; rfl
    | cons r before ih =>
      cases h1 with
      | cons h t =>
        obtain ⟨_, _, h3, a, b, h4, h5, _, _, h6⟩ := h
        obtain ⟨b, hb'⟩ := hb r List.mem_cons_self
        rw [List.mapM_cons, bind_ok, h4, h5, npSlice_nat, h6, real_stored, h3, hb', bind_ok,
          ih (fun r hr => hb r (List.mem_cons_of_mem _ hr)) _ t]; rfl
  rw [h2, if_neg (by simp)]
  unfold collect
  rw [hm]
  rfl

/-- the result type must be one of three -/
theorem element_restype {d : Struc K} {restype : String}
    (h : restype ≠ "beamforce" ∧ restype ≠ "generalstress" ∧ restype ≠ "decomposedstress") (s3 : K)
    (pos : String) (run : Int) (rescases : CasesArg) (sets : SetsArg) :
    getElementResults s3 d restype pos run rescases sets = .error .valueError := by
  unfold getElementResults elemResTable
  rw [if_neg h.1, if_neg (by rintro (h' | h'); exact h.2.1 h'; exact h.2.2 h')]
  rfl

end main
end Verif.Data
